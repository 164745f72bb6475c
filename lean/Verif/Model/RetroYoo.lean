import Verif.Model.FunctionFile
/-
Model of the class `yoo_function` (plugin nonlinear_function_retroyoo).

Modelled: /repo/sources/plugins/nonlinear_function_retroyoo/function.cpp 30-199 (but the shader
export).

Simplifications: numbers are exact.  The vectors made by `value` and `parameters` are not initialised
(`vec` is a vector of Eigen): what memory holds then is the parameters `mem` and `tail` of the class.
-/
namespace Alta
noncomputable section

/-- State of `yoo_function`. -/
@[ext] structure YooS where
  par : Par
  kr : ℕ → ℝ
  lt : ℕ → ℝ

/-- the factor of `_kr[i]`, `x0` being `x[0]`.
    /repo/sources/plugins/nonlinear_function_retroyoo/function.cpp 48-53. -/
def yooBase (x0 lt : ℝ) : ℝ :=
  let q := 2 * Real.pi * x0 / 633
  3 / (16 * Real.pi) * (2.4 + 1 / (1 + q * lt * lt)) * (1 + (1 - Real.exp (-2 * q * 0.7 * lt) / (q * lt)))

/-- `yoo_function`.  /repo/sources/plugins/nonlinear_function_retroyoo/function.cpp 44-55 (value),
    58-61, 64-73 (parameters, of size 3 dimY), 76-86 (bounds), 89-96, 101-130 (Jacobian). -/
def yooCls (mem tail : ℕ → ℝ) : Cls YooS where
  par s := s.par
  nb s := 2 * s.par.dimY
  get s := (blocks s.par.dimY fun i => [s.kr i, s.lt i]) ++ (List.range s.par.dimY).map tail
  set s p := { s with
    kr := readInto s.par.dimY p (fun i => i * 2 + 0) s.kr
    lt := readInto s.par.dimY p (fun i => i * 2 + 1) s.lt }
  lo s := blocks s.par.dimY fun _ => [0, 0]
  hi s := defaultMax (2 * s.par.dimY)
  value s x := some ((List.range s.par.dimY).map fun i =>
    mem i * (s.kr i * yooBase (arr x 0) (s.lt i)))
  jac s x := some (blocks s.par.dimY fun i => blocks s.par.dimY fun j =>
    if i = j then [yooBase (arr x 0) (s.lt i), s.kr i * yooBase (arr x 0) (s.lt i)] else [0, 0])

/-- The constructor; the attributes are not initialised.
    /repo/sources/plugins/nonlinear_function_retroyoo/function.cpp 30-36. -/
def mkYoo (p : Par) (kr lt : ℕ → ℝ) : YooS := ⟨{ p with dimX := 6, input := .CARTESIAN }, kr, lt⟩

/-- `bootstrap`.  /repo/sources/plugins/nonlinear_function_retroyoo/function.cpp 132-139. -/
def YooS.bootstrap (s : YooS) : YooS :=
  { s with kr := fun i => if i < s.par.dimY then 1 else s.kr i
           lt := fun i => if i < s.par.dimY then 1 else s.lt i }

/-- `load`.  /repo/sources/plugins/nonlinear_function_retroyoo/function.cpp 142-180. -/
def YooS.load (s : YooS) (st : Stream) : Bool × YooS × Stream :=
  readBlock "nonlinear_function_retroyoo".toList (blocks s.par.dimY fun i => [s.kr i, s.lt i])
    (fun v => { s with kr := readInto s.par.dimY v (fun i => i * 2 + 0) s.kr
                       lt := readInto s.par.dimY v (fun i => i * 2 + 1) s.lt }) s st

/-- `save_call`, ALTA format.
    /repo/sources/plugins/nonlinear_function_retroyoo/function.cpp 183-199. -/
def YooS.saveCall (fmt : ℝ → Decimal) (s : YooS) : Str :=
  funcLine "nonlinear_function_retroyoo".toList ++ "#TYPE ".toList ++ channelLines s.par.dimY fun i =>
    line fmt "Kr ".toList (s.kr i) ++ line fmt "Lt ".toList (s.lt i)

end
end Alta
