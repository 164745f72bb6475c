import Verif.Model.TextLoad
import Verif.Spec.Decimal
/-
Model of `save_data_as_text` and of the default loader on a text file.

Modelled: /repo/sources/core/data_storage.cpp 268-290,
/repo/sources/core/plugins_manager.cpp 476-495.

Simplification: how a double is written (`std::setprecision(15)`) is the parameter
`fmt`; the theorems say what they need of it.
-/
namespace Alta

/-- One line of the body: each number followed by a tabulation.
    /repo/sources/core/data_storage.cpp 279-289. -/
def saveRow (fmt : ℝ → Decimal) : List ℝ → Str
  | [] => ['\n']
  | x :: r => (fmt x).text ++ '\t' :: saveRow fmt r

/-- `save_data_as_text`.  /repo/sources/core/data_storage.cpp 268-290. -/
noncomputable def saveText (fmt : ℝ → Decimal) (d : Data) : Str :=
  "#DIM ".toList ++ showNat d.dimX ++ " ".toList ++ showNat d.dimY ++ "\n".toList ++
  "#PARAM_IN  ".toList ++ (inputName d.input).toList ++ "\n".toList ++
  "#PARAM_OUT ".toList ++ (outputName d.output).toList ++ "\n".toList ++
  (d.rows.map fun r => saveRow fmt (r.take (d.dimX + d.dimY))).flatten

/-- `plugins_manager::load_data` for the default data type and a file that is not
    declared binary.  /repo/sources/core/plugins_manager.cpp 476-495. -/
noncomputable def loadDataText (file : Str) (args : SMap) : Option Segments :=
  let (h, rest) := parseHeader file
  if h.get "FORMAT".toList = "binary".toList then Option.none else loadText rest h args

end Alta
