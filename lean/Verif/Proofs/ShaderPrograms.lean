import Verif.Spec.Glsl
import Verif.Model.ShaderExport
/-
The words of the functions written in the exported shaders, and the functions they define.
-/
namespace Alta
open Glsl

/-- The words of `blinnBody`. -/
def blinnToks : List Token :=
  [.ident ['v', 'e', 'c', '3'], .ident ['b', 'l', 'i', 'n', 'n'], .sym '(', .ident ['v', 'e', 'c', '3'],
   .ident ['L'], .sym ',', .ident ['v', 'e', 'c', '3'], .ident ['V'], .sym ',', .ident ['v', 'e', 'c', '3'],
   .ident ['N'], .sym ',', .ident ['v', 'e', 'c', '3'], .ident ['X'], .sym ',', .ident ['v', 'e', 'c', '3'],
   .ident ['Y'], .sym ',', .ident ['v', 'e', 'c', '3'], .ident ['k', 's'], .sym ',',
   .ident ['v', 'e', 'c', '3'], .ident ['N', 'l'], .sym ')', .sym '{', .ident ['v', 'e', 'c', '3'],
   .ident ['H'], .sym '=', .ident ['n', 'o', 'r', 'm', 'a', 'l', 'i', 'z', 'e'], .sym '(', .ident ['L'],
   .sym '+', .ident ['V'], .sym ')', .sym ';', .ident ['v', 'e', 'c', '3'],
   .ident ['e', 'x', 't', '_', 'd', 'o', 't'], .sym '=', .ident ['v', 'e', 'c', '3'], .sym '(',
   .ident ['d', 'o', 't'], .sym '(', .ident ['H'], .sym ',', .ident ['N'], .sym ')', .sym ')', .sym ';',
   .ident ['r', 'e', 't', 'u', 'r', 'n'], .ident ['k', 's'], .sym '*', .ident ['p', 'o', 'w'], .sym '(',
   .ident ['m', 'a', 'x'], .sym '(', .ident ['e', 'x', 't', '_', 'd', 'o', 't'], .sym ',',
   .ident ['v', 'e', 'c', '3'], .sym '(', .num ['0'], .sym ',', .num ['0'], .sym ',', .num ['0'], .sym ')',
   .sym ')', .sym ',', .ident ['N', 'l'], .sym ')', .sym ';', .sym '}']

/-- The function defined by `blinnBody`. -/
def blinnDef : FunDef :=
  ⟨.vec3, ['b', 'l', 'i', 'n', 'n'],
  [(.vec3, ['L']), (.vec3, ['V']), (.vec3, ['N']), (.vec3, ['X']), (.vec3, ['Y']), (.vec3, ['k', 's']), (.vec3, ['N', 'l'])],
  (.cons (.decl .vec3 ['H']
    (.call ['n', 'o', 'r', 'm', 'a', 'l', 'i', 'z', 'e'] (.cons (.bin .add (.var ['L']) (.var ['V'])) .nil)))
  (.cons (.decl .vec3 ['e', 'x', 't', '_', 'd', 'o', 't']
    (.call ['v', 'e', 'c', '3'] (.cons (.call ['d', 'o', 't'] (.cons (.var ['H']) (.cons (.var ['N']) .nil))) .nil)))
  (.cons (.ret
    (.bin .mul (.var ['k', 's']) (.call ['p', 'o', 'w'] (.cons (.call ['m', 'a', 'x'] (.cons (.var ['e', 'x', 't', '_', 'd', 'o', 't']) (.cons (.call ['v', 'e', 'c', '3'] (.cons (.num ['0']) (.cons (.num ['0']) (.cons (.num ['0']) .nil)))) .nil))) (.cons (.var ['N', 'l']) .nil)))))
  .nil)))⟩

/-- The words of `retroblinnBody`. -/
def retroblinnToks : List Token :=
  [.ident ['v', 'e', 'c', '3'], .ident ['r', 'e', 't', 'r', 'o', 'b', 'l', 'i', 'n', 'n'], .sym '(',
   .ident ['v', 'e', 'c', '3'], .ident ['L'], .sym ',', .ident ['v', 'e', 'c', '3'], .ident ['V'], .sym ',',
   .ident ['v', 'e', 'c', '3'], .ident ['N'], .sym ',', .ident ['v', 'e', 'c', '3'], .ident ['X'], .sym ',',
   .ident ['v', 'e', 'c', '3'], .ident ['Y'], .sym ',', .ident ['v', 'e', 'c', '3'], .ident ['k', 's'],
   .sym ',', .ident ['v', 'e', 'c', '3'], .ident ['N', 'l'], .sym ')', .sym '{', .ident ['v', 'e', 'c', '3'],
   .ident ['V', 'p'], .sym '=', .num ['2', '.', '0', 'f'], .sym '*', .ident ['N'], .sym '*', .sym '(',
   .ident ['d', 'o', 't'], .sym '(', .ident ['N'], .sym ',', .ident ['V'], .sym ')', .sym ')', .sym '-',
   .ident ['V'], .sym ';', .ident ['v', 'e', 'c', '3'], .ident ['K'], .sym '=',
   .ident ['n', 'o', 'r', 'm', 'a', 'l', 'i', 'z', 'e'], .sym '(', .ident ['L'], .sym '+', .ident ['V', 'p'],
   .sym ')', .sym ';', .ident ['v', 'e', 'c', '3'], .ident ['e', 'x', 't', '_', 'd', 'o', 't'], .sym '=',
   .ident ['v', 'e', 'c', '3'], .sym '(', .ident ['d', 'o', 't'], .sym '(', .ident ['K'], .sym ',',
   .ident ['N'], .sym ')', .sym ')', .sym ';', .ident ['r', 'e', 't', 'u', 'r', 'n'], .ident ['p', 'o', 'w'],
   .sym '(', .ident ['m', 'a', 'x'], .sym '(', .ident ['e', 'x', 't', '_', 'd', 'o', 't'], .sym ',',
   .ident ['v', 'e', 'c', '3'], .sym '(', .num ['0'], .sym ',', .num ['0'], .sym ',', .num ['0'], .sym ')',
   .sym ')', .sym ',', .ident ['N', 'l'], .sym ')', .sym ';', .sym '}']

/-- The function defined by `retroblinnBody`. -/
def retroblinnDef : FunDef :=
  ⟨.vec3, ['r', 'e', 't', 'r', 'o', 'b', 'l', 'i', 'n', 'n'],
  [(.vec3, ['L']), (.vec3, ['V']), (.vec3, ['N']), (.vec3, ['X']), (.vec3, ['Y']), (.vec3, ['k', 's']), (.vec3, ['N', 'l'])],
  (.cons (.decl .vec3 ['V', 'p']
    (.bin .sub (.bin .mul (.bin .mul (.num ['2', '.', '0', 'f']) (.var ['N'])) (.call ['d', 'o', 't'] (.cons (.var ['N']) (.cons (.var ['V']) .nil)))) (.var ['V'])))
  (.cons (.decl .vec3 ['K']
    (.call ['n', 'o', 'r', 'm', 'a', 'l', 'i', 'z', 'e'] (.cons (.bin .add (.var ['L']) (.var ['V', 'p'])) .nil)))
  (.cons (.decl .vec3 ['e', 'x', 't', '_', 'd', 'o', 't']
    (.call ['v', 'e', 'c', '3'] (.cons (.call ['d', 'o', 't'] (.cons (.var ['K']) (.cons (.var ['N']) .nil))) .nil)))
  (.cons (.ret
    (.call ['p', 'o', 'w'] (.cons (.call ['m', 'a', 'x'] (.cons (.var ['e', 'x', 't', '_', 'd', 'o', 't']) (.cons (.call ['v', 'e', 'c', '3'] (.cons (.num ['0']) (.cons (.num ['0']) (.cons (.num ['0']) .nil)))) .nil))) (.cons (.var ['N', 'l']) .nil))))
  .nil))))⟩

/-- The words of `lafortuneBody`. -/
def lafortuneToks : List Token :=
  [.ident ['v', 'e', 'c', '3'], .ident ['l', 'a', 'f', 'o', 'r', 't', 'u', 'n', 'e'], .sym '(',
   .ident ['v', 'e', 'c', '3'], .ident ['L'], .sym ',', .ident ['v', 'e', 'c', '3'], .ident ['V'], .sym ',',
   .ident ['v', 'e', 'c', '3'], .ident ['N'], .sym ',', .ident ['v', 'e', 'c', '3'], .ident ['X'], .sym ',',
   .ident ['v', 'e', 'c', '3'], .ident ['Y'], .sym ',', .ident ['v', 'e', 'c', '3'], .ident ['C', 'x'],
   .sym ',', .ident ['v', 'e', 'c', '3'], .ident ['C', 'y'], .sym ',', .ident ['v', 'e', 'c', '3'],
   .ident ['C', 'z'], .sym ',', .ident ['v', 'e', 'c', '3'], .ident ['N', 'l'], .sym ')', .sym '{',
   .ident ['v', 'e', 'c', '3'], .ident ['e', 'x', 't', '_', 'd', 'o', 't'], .sym '=', .ident ['C', 'x'],
   .sym '*', .ident ['d', 'o', 't'], .sym '(', .ident ['L'], .sym ',', .ident ['X'], .sym ')', .sym '*',
   .ident ['d', 'o', 't'], .sym '(', .ident ['V'], .sym ',', .ident ['X'], .sym ')', .sym '+',
   .ident ['C', 'y'], .sym '*', .ident ['d', 'o', 't'], .sym '(', .ident ['L'], .sym ',', .ident ['Y'],
   .sym ')', .sym '*', .ident ['d', 'o', 't'], .sym '(', .ident ['V'], .sym ',', .ident ['Y'], .sym ')',
   .sym '+', .ident ['C', 'z'], .sym '*', .ident ['d', 'o', 't'], .sym '(', .ident ['L'], .sym ',',
   .ident ['N'], .sym ')', .sym '*', .ident ['d', 'o', 't'], .sym '(', .ident ['V'], .sym ',', .ident ['N'],
   .sym ')', .sym ';', .ident ['r', 'e', 't', 'u', 'r', 'n'], .ident ['p', 'o', 'w'], .sym '(',
   .ident ['m', 'a', 'x'], .sym '(', .ident ['e', 'x', 't', '_', 'd', 'o', 't'], .sym ',',
   .ident ['v', 'e', 'c', '3'], .sym '(', .num ['0'], .sym ',', .num ['0'], .sym ',', .num ['0'], .sym ')',
   .sym ')', .sym ',', .ident ['N', 'l'], .sym ')', .sym ';', .sym '}']

/-- The function defined by `lafortuneBody`. -/
def lafortuneDef : FunDef :=
  ⟨.vec3, ['l', 'a', 'f', 'o', 'r', 't', 'u', 'n', 'e'],
  [(.vec3, ['L']), (.vec3, ['V']), (.vec3, ['N']), (.vec3, ['X']), (.vec3, ['Y']), (.vec3, ['C', 'x']), (.vec3, ['C', 'y']), (.vec3, ['C', 'z']), (.vec3, ['N', 'l'])],
  (.cons (.decl .vec3 ['e', 'x', 't', '_', 'd', 'o', 't']
    (.bin .add (.bin .add (.bin .mul (.bin .mul (.var ['C', 'x']) (.call ['d', 'o', 't'] (.cons (.var ['L']) (.cons (.var ['X']) .nil)))) (.call ['d', 'o', 't'] (.cons (.var ['V']) (.cons (.var ['X']) .nil)))) (.bin .mul (.bin .mul (.var ['C', 'y']) (.call ['d', 'o', 't'] (.cons (.var ['L']) (.cons (.var ['Y']) .nil)))) (.call ['d', 'o', 't'] (.cons (.var ['V']) (.cons (.var ['Y']) .nil))))) (.bin .mul (.bin .mul (.var ['C', 'z']) (.call ['d', 'o', 't'] (.cons (.var ['L']) (.cons (.var ['N']) .nil)))) (.call ['d', 'o', 't'] (.cons (.var ['V']) (.cons (.var ['N']) .nil))))))
  (.cons (.ret
    (.call ['p', 'o', 'w'] (.cons (.call ['m', 'a', 'x'] (.cons (.var ['e', 'x', 't', '_', 'd', 'o', 't']) (.cons (.call ['v', 'e', 'c', '3'] (.cons (.num ['0']) (.cons (.num ['0']) (.cons (.num ['0']) .nil)))) .nil))) (.cons (.var ['N', 'l']) .nil))))
  .nil))⟩

/-- The words of `isoLafortuneBody`. -/
def isoLafortuneToks : List Token :=
  [.ident ['v', 'e', 'c', '3'], .ident ['l', 'a', 'f', 'o', 'r', 't', 'u', 'n', 'e'], .sym '(',
   .ident ['v', 'e', 'c', '3'], .ident ['L'], .sym ',', .ident ['v', 'e', 'c', '3'], .ident ['V'], .sym ',',
   .ident ['v', 'e', 'c', '3'], .ident ['N'], .sym ',', .ident ['v', 'e', 'c', '3'], .ident ['X'], .sym ',',
   .ident ['v', 'e', 'c', '3'], .ident ['Y'], .sym ',', .ident ['v', 'e', 'c', '3'], .ident ['C', 'x'],
   .sym ',', .ident ['v', 'e', 'c', '3'], .ident ['C', 'z'], .sym ',', .ident ['v', 'e', 'c', '3'],
   .ident ['N', 'l'], .sym ')', .sym '{', .ident ['v', 'e', 'c', '3'],
   .ident ['e', 'x', 't', '_', 'd', 'o', 't'], .sym '=', .ident ['C', 'x'], .sym '*', .sym '(',
   .ident ['d', 'o', 't'], .sym '(', .ident ['L'], .sym ',', .ident ['X'], .sym ')', .sym '*',
   .ident ['d', 'o', 't'], .sym '(', .ident ['V'], .sym ',', .ident ['X'], .sym ')', .sym '+',
   .ident ['d', 'o', 't'], .sym '(', .ident ['L'], .sym ',', .ident ['Y'], .sym ')', .sym '*',
   .ident ['d', 'o', 't'], .sym '(', .ident ['V'], .sym ',', .ident ['Y'], .sym ')', .sym ')', .sym '+',
   .ident ['C', 'z'], .sym '*', .ident ['d', 'o', 't'], .sym '(', .ident ['L'], .sym ',', .ident ['N'],
   .sym ')', .sym '*', .ident ['d', 'o', 't'], .sym '(', .ident ['V'], .sym ',', .ident ['N'], .sym ')',
   .sym ';', .ident ['r', 'e', 't', 'u', 'r', 'n'], .ident ['p', 'o', 'w'], .sym '(', .ident ['m', 'a', 'x'],
   .sym '(', .ident ['e', 'x', 't', '_', 'd', 'o', 't'], .sym ',', .ident ['v', 'e', 'c', '3'], .sym '(',
   .num ['0'], .sym ',', .num ['0'], .sym ',', .num ['0'], .sym ')', .sym ')', .sym ',', .ident ['N', 'l'],
   .sym ')', .sym ';', .sym '}']

/-- The function defined by `isoLafortuneBody`. -/
def isoLafortuneDef : FunDef :=
  ⟨.vec3, ['l', 'a', 'f', 'o', 'r', 't', 'u', 'n', 'e'],
  [(.vec3, ['L']), (.vec3, ['V']), (.vec3, ['N']), (.vec3, ['X']), (.vec3, ['Y']), (.vec3, ['C', 'x']), (.vec3, ['C', 'z']), (.vec3, ['N', 'l'])],
  (.cons (.decl .vec3 ['e', 'x', 't', '_', 'd', 'o', 't']
    (.bin .add (.bin .mul (.var ['C', 'x']) (.bin .add (.bin .mul (.call ['d', 'o', 't'] (.cons (.var ['L']) (.cons (.var ['X']) .nil))) (.call ['d', 'o', 't'] (.cons (.var ['V']) (.cons (.var ['X']) .nil)))) (.bin .mul (.call ['d', 'o', 't'] (.cons (.var ['L']) (.cons (.var ['Y']) .nil))) (.call ['d', 'o', 't'] (.cons (.var ['V']) (.cons (.var ['Y']) .nil)))))) (.bin .mul (.bin .mul (.var ['C', 'z']) (.call ['d', 'o', 't'] (.cons (.var ['L']) (.cons (.var ['N']) .nil)))) (.call ['d', 'o', 't'] (.cons (.var ['V']) (.cons (.var ['N']) .nil))))))
  (.cons (.ret
    (.call ['p', 'o', 'w'] (.cons (.call ['m', 'a', 'x'] (.cons (.var ['e', 'x', 't', '_', 'd', 'o', 't']) (.cons (.call ['v', 'e', 'c', '3'] (.cons (.num ['0']) (.cons (.num ['0']) (.cons (.num ['0']) .nil)))) .nil))) (.cons (.var ['N', 'l']) .nil))))
  .nil))⟩

/-- The words of `schlickBody`. -/
def schlickToks : List Token :=
  [.ident ['v', 'e', 'c', '3'],
   .ident ['s', 'c', 'h', 'l', 'i', 'c', 'k', '_', 'f', 'r', 'e', 's', 'n', 'e', 'l'], .sym '(',
   .ident ['v', 'e', 'c', '3'], .ident ['L'], .sym ',', .ident ['v', 'e', 'c', '3'], .ident ['V'], .sym ',',
   .ident ['v', 'e', 'c', '3'], .ident ['N'], .sym ',', .ident ['v', 'e', 'c', '3'], .ident ['X'], .sym ',',
   .ident ['v', 'e', 'c', '3'], .ident ['Y'], .sym ',', .ident ['v', 'e', 'c', '3'], .ident ['R'], .sym ')',
   .sym '{', .ident ['v', 'e', 'c', '3'], .ident ['H'], .sym '=',
   .ident ['n', 'o', 'r', 'm', 'a', 'l', 'i', 'z', 'e'], .sym '(', .ident ['L'], .sym '+', .ident ['V'],
   .sym ')', .sym ';', .ident ['r', 'e', 't', 'u', 'r', 'n'], .ident ['R'], .sym '+', .sym '(',
   .ident ['v', 'e', 'c', '3'], .sym '(', .num ['1', '.', '0'], .sym ')', .sym '-', .ident ['R'], .sym ')',
   .sym '*', .ident ['p', 'o', 'w'], .sym '(', .num ['1', '.', '0', 'f'], .sym '-',
   .ident ['c', 'l', 'a', 'm', 'p'], .sym '(', .ident ['d', 'o', 't'], .sym '(', .ident ['H'], .sym ',',
   .ident ['V'], .sym ')', .sym ',', .num ['0', '.', '0', 'f'], .sym ',', .num ['1', '.', '0', 'f'], .sym ')',
   .sym ',', .num ['5'], .sym ')', .sym ';', .sym '}']

/-- The function defined by `schlickBody`. -/
def schlickDef : FunDef :=
  ⟨.vec3, ['s', 'c', 'h', 'l', 'i', 'c', 'k', '_', 'f', 'r', 'e', 's', 'n', 'e', 'l'],
  [(.vec3, ['L']), (.vec3, ['V']), (.vec3, ['N']), (.vec3, ['X']), (.vec3, ['Y']), (.vec3, ['R'])],
  (.cons (.decl .vec3 ['H']
    (.call ['n', 'o', 'r', 'm', 'a', 'l', 'i', 'z', 'e'] (.cons (.bin .add (.var ['L']) (.var ['V'])) .nil)))
  (.cons (.ret
    (.bin .add (.var ['R']) (.bin .mul (.bin .sub (.call ['v', 'e', 'c', '3'] (.cons (.num ['1', '.', '0']) .nil)) (.var ['R'])) (.call ['p', 'o', 'w'] (.cons (.bin .sub (.num ['1', '.', '0', 'f']) (.call ['c', 'l', 'a', 'm', 'p'] (.cons (.call ['d', 'o', 't'] (.cons (.var ['H']) (.cons (.var ['V']) .nil))) (.cons (.num ['0', '.', '0', 'f']) (.cons (.num ['1', '.', '0', 'f']) .nil))))) (.cons (.num ['5']) .nil))))))
  .nil))⟩

/-- The words of `normalizedSchlickBody`. -/
def normalizedSchlickToks : List Token :=
  [.ident ['v', 'e', 'c', '3'],
   .ident ['n', 'o', 'r', 'm', 'a', 'l', 'i', 'z', 'e', 'd', '_', 's', 'c', 'h', 'l', 'i', 'c', 'k', '_', 'f', 'r', 'e', 's', 'n', 'e', 'l'],
   .sym '(', .ident ['v', 'e', 'c', '3'], .ident ['L'], .sym ',', .ident ['v', 'e', 'c', '3'], .ident ['V'],
   .sym ',', .ident ['v', 'e', 'c', '3'], .ident ['N'], .sym ',', .ident ['v', 'e', 'c', '3'], .ident ['X'],
   .sym ',', .ident ['v', 'e', 'c', '3'], .ident ['Y'], .sym ',', .ident ['v', 'e', 'c', '3'], .ident ['R'],
   .sym ')', .sym '{', .ident ['v', 'e', 'c', '3'], .ident ['H'], .sym '=',
   .ident ['n', 'o', 'r', 'm', 'a', 'l', 'i', 'z', 'e'], .sym '(', .ident ['L'], .sym '+', .ident ['V'],
   .sym ')', .sym ';', .ident ['r', 'e', 't', 'u', 'r', 'n'], .ident ['v', 'e', 'c', '3'], .sym '(',
   .num ['1', '.', '0', 'f'], .sym ')', .sym '+', .sym '(', .ident ['v', 'e', 'c', '3'], .sym '(',
   .num ['1', '.', '0', 'f'], .sym ')', .sym '/', .ident ['R'], .sym '-', .ident ['v', 'e', 'c', '3'],
   .sym '(', .num ['1', '.', '0', 'f'], .sym ')', .sym ')', .sym '*', .ident ['p', 'o', 'w'], .sym '(',
   .num ['1', '.', '0', 'f'], .sym '-', .ident ['c', 'l', 'a', 'm', 'p'], .sym '(', .ident ['d', 'o', 't'],
   .sym '(', .ident ['H'], .sym ',', .ident ['V'], .sym ')', .sym ',', .num ['0', '.', '0', 'f'], .sym ',',
   .num ['1', '.', '0', 'f'], .sym ')', .sym ',', .num ['5'], .sym ')', .sym ';', .sym '}']

/-- The function defined by `normalizedSchlickBody`. -/
def normalizedSchlickDef : FunDef :=
  ⟨.vec3, ['n', 'o', 'r', 'm', 'a', 'l', 'i', 'z', 'e', 'd', '_', 's', 'c', 'h', 'l', 'i', 'c', 'k', '_', 'f', 'r', 'e', 's', 'n', 'e', 'l'],
  [(.vec3, ['L']), (.vec3, ['V']), (.vec3, ['N']), (.vec3, ['X']), (.vec3, ['Y']), (.vec3, ['R'])],
  (.cons (.decl .vec3 ['H']
    (.call ['n', 'o', 'r', 'm', 'a', 'l', 'i', 'z', 'e'] (.cons (.bin .add (.var ['L']) (.var ['V'])) .nil)))
  (.cons (.ret
    (.bin .add (.call ['v', 'e', 'c', '3'] (.cons (.num ['1', '.', '0', 'f']) .nil)) (.bin .mul (.bin .sub (.bin .div (.call ['v', 'e', 'c', '3'] (.cons (.num ['1', '.', '0', 'f']) .nil)) (.var ['R'])) (.call ['v', 'e', 'c', '3'] (.cons (.num ['1', '.', '0', 'f']) .nil))) (.call ['p', 'o', 'w'] (.cons (.bin .sub (.num ['1', '.', '0', 'f']) (.call ['c', 'l', 'a', 'm', 'p'] (.cons (.call ['d', 'o', 't'] (.cons (.var ['H']) (.cons (.var ['V']) .nil))) (.cons (.num ['0', '.', '0', 'f']) (.cons (.num ['1', '.', '0', 'f']) .nil))))) (.cons (.num ['5']) .nil))))))
  .nil))⟩

/-- The words of `retroSchlickBody`. -/
def retroSchlickToks : List Token :=
  [.ident ['v', 'e', 'c', '3'],
   .ident ['r', 'e', 't', 'r', 'o', '_', 's', 'c', 'h', 'l', 'i', 'c', 'k', '_', 'f', 'r', 'e', 's', 'n', 'e', 'l'],
   .sym '(', .ident ['v', 'e', 'c', '3'], .ident ['L'], .sym ',', .ident ['v', 'e', 'c', '3'], .ident ['V'],
   .sym ',', .ident ['v', 'e', 'c', '3'], .ident ['N'], .sym ',', .ident ['v', 'e', 'c', '3'], .ident ['X'],
   .sym ',', .ident ['v', 'e', 'c', '3'], .ident ['Y'], .sym ',', .ident ['v', 'e', 'c', '3'],
   .ident ['R', '0'], .sym ')', .sym '{', .ident ['v', 'e', 'c', '3'], .ident ['R'], .sym '=',
   .num ['2', '.', '0', 'f'], .sym '*', .ident ['d', 'o', 't'], .sym '(', .ident ['V'], .sym ',',
   .ident ['N'], .sym ')', .sym '*', .ident ['N'], .sym '-', .ident ['V'], .sym ';',
   .ident ['v', 'e', 'c', '3'], .ident ['K'], .sym '=', .ident ['n', 'o', 'r', 'm', 'a', 'l', 'i', 'z', 'e'],
   .sym '(', .ident ['L'], .sym '+', .ident ['R'], .sym ')', .sym ';', .ident ['r', 'e', 't', 'u', 'r', 'n'],
   .ident ['v', 'e', 'c', '3'], .sym '(', .ident ['R', '0'], .sym '+', .sym '(', .ident ['v', 'e', 'c', '3'],
   .sym '(', .num ['1', '.', '0', 'f'], .sym ')', .sym '-', .ident ['R', '0'], .sym ')', .sym '*',
   .ident ['p', 'o', 'w'], .sym '(', .num ['1', '.', '0', 'f'], .sym '-', .ident ['c', 'l', 'a', 'm', 'p'],
   .sym '(', .ident ['d', 'o', 't'], .sym '(', .ident ['K'], .sym ',', .ident ['R'], .sym ')', .sym ',',
   .num ['0', '.', '0', 'f'], .sym ',', .num ['1', '.', '0', 'f'], .sym ')', .sym ',',
   .num ['5', '.', '0', 'f'], .sym ')', .sym ')', .sym ';', .sym '}']

/-- The function defined by `retroSchlickBody`. -/
def retroSchlickDef : FunDef :=
  ⟨.vec3, ['r', 'e', 't', 'r', 'o', '_', 's', 'c', 'h', 'l', 'i', 'c', 'k', '_', 'f', 'r', 'e', 's', 'n', 'e', 'l'],
  [(.vec3, ['L']), (.vec3, ['V']), (.vec3, ['N']), (.vec3, ['X']), (.vec3, ['Y']), (.vec3, ['R', '0'])],
  (.cons (.decl .vec3 ['R']
    (.bin .sub (.bin .mul (.bin .mul (.num ['2', '.', '0', 'f']) (.call ['d', 'o', 't'] (.cons (.var ['V']) (.cons (.var ['N']) .nil)))) (.var ['N'])) (.var ['V'])))
  (.cons (.decl .vec3 ['K']
    (.call ['n', 'o', 'r', 'm', 'a', 'l', 'i', 'z', 'e'] (.cons (.bin .add (.var ['L']) (.var ['R'])) .nil)))
  (.cons (.ret
    (.call ['v', 'e', 'c', '3'] (.cons (.bin .add (.var ['R', '0']) (.bin .mul (.bin .sub (.call ['v', 'e', 'c', '3'] (.cons (.num ['1', '.', '0', 'f']) .nil)) (.var ['R', '0'])) (.call ['p', 'o', 'w'] (.cons (.bin .sub (.num ['1', '.', '0', 'f']) (.call ['c', 'l', 'a', 'm', 'p'] (.cons (.call ['d', 'o', 't'] (.cons (.var ['K']) (.cons (.var ['R']) .nil))) (.cons (.num ['0', '.', '0', 'f']) (.cons (.num ['1', '.', '0', 'f']) .nil))))) (.cons (.num ['5', '.', '0', 'f']) .nil))))) .nil)))
  .nil)))⟩

/-- The words of `sgHalfBody`. -/
def sgHalfToks : List Token :=
  [.ident ['v', 'e', 'c', '3'],
   .ident ['s', 'p', 'h', 'e', 'r', 'i', 'c', 'a', 'l', '_', 'g', 'a', 'u', 's', 's', 'i', 'a', 'n'],
   .sym '(', .ident ['v', 'e', 'c', '3'], .ident ['L'], .sym ',', .ident ['v', 'e', 'c', '3'], .ident ['V'],
   .sym ',', .ident ['v', 'e', 'c', '3'], .ident ['N'], .sym ',', .ident ['v', 'e', 'c', '3'], .ident ['X'],
   .sym ',', .ident ['v', 'e', 'c', '3'], .ident ['Y'], .sym ',', .ident ['v', 'e', 'c', '3'],
   .ident ['k', 's'], .sym ',', .ident ['v', 'e', 'c', '3'], .ident ['N', 'l'], .sym ')', .sym '{',
   .ident ['v', 'e', 'c', '3'], .ident ['H'], .sym '=', .ident ['n', 'o', 'r', 'm', 'a', 'l', 'i', 'z', 'e'],
   .sym '(', .ident ['L'], .sym '+', .ident ['V'], .sym ')', .sym ';', .ident ['v', 'e', 'c', '3'],
   .ident ['e', 'x', 't', '_', 'd', 'o', 't'], .sym '=', .ident ['v', 'e', 'c', '3'], .sym '(',
   .ident ['d', 'o', 't'], .sym '(', .ident ['H'], .sym ',', .ident ['N'], .sym ')', .sym ')', .sym ';',
   .ident ['r', 'e', 't', 'u', 'r', 'n'], .ident ['k', 's'], .sym '*', .ident ['e', 'x', 'p'], .sym '(',
   .ident ['N', 'l'], .sym '*', .sym '(', .ident ['e', 'x', 't', '_', 'd', 'o', 't'], .sym '-',
   .ident ['v', 'e', 'c', '3'], .sym '(', .num ['1'], .sym ')', .sym ')', .sym ')', .sym ';', .sym '}']

/-- The function defined by `sgHalfBody`. -/
def sgHalfDef : FunDef :=
  ⟨.vec3, ['s', 'p', 'h', 'e', 'r', 'i', 'c', 'a', 'l', '_', 'g', 'a', 'u', 's', 's', 'i', 'a', 'n'],
  [(.vec3, ['L']), (.vec3, ['V']), (.vec3, ['N']), (.vec3, ['X']), (.vec3, ['Y']), (.vec3, ['k', 's']), (.vec3, ['N', 'l'])],
  (.cons (.decl .vec3 ['H']
    (.call ['n', 'o', 'r', 'm', 'a', 'l', 'i', 'z', 'e'] (.cons (.bin .add (.var ['L']) (.var ['V'])) .nil)))
  (.cons (.decl .vec3 ['e', 'x', 't', '_', 'd', 'o', 't']
    (.call ['v', 'e', 'c', '3'] (.cons (.call ['d', 'o', 't'] (.cons (.var ['H']) (.cons (.var ['N']) .nil))) .nil)))
  (.cons (.ret
    (.bin .mul (.var ['k', 's']) (.call ['e', 'x', 'p'] (.cons (.bin .mul (.var ['N', 'l']) (.bin .sub (.var ['e', 'x', 't', '_', 'd', 'o', 't']) (.call ['v', 'e', 'c', '3'] (.cons (.num ['1']) .nil)))) .nil))))
  .nil)))⟩

/-- The words of `sgBackBody`. -/
def sgBackToks : List Token :=
  [.ident ['v', 'e', 'c', '3'],
   .ident ['s', 'p', 'h', 'e', 'r', 'i', 'c', 'a', 'l', '_', 'g', 'a', 'u', 's', 's', 'i', 'a', 'n'],
   .sym '(', .ident ['v', 'e', 'c', '3'], .ident ['L'], .sym ',', .ident ['v', 'e', 'c', '3'], .ident ['V'],
   .sym ',', .ident ['v', 'e', 'c', '3'], .ident ['N'], .sym ',', .ident ['v', 'e', 'c', '3'], .ident ['X'],
   .sym ',', .ident ['v', 'e', 'c', '3'], .ident ['Y'], .sym ',', .ident ['v', 'e', 'c', '3'],
   .ident ['k', 's'], .sym ',', .ident ['v', 'e', 'c', '3'], .ident ['N', 'l'], .sym ')', .sym '{',
   .ident ['v', 'e', 'c', '3'], .ident ['V', 'p'], .sym '=', .num ['2', '.', '0', 'f'], .sym '*',
   .ident ['N'], .sym '*', .sym '(', .ident ['d', 'o', 't'], .sym '(', .ident ['N'], .sym ',', .ident ['V'],
   .sym ')', .sym ')', .sym '-', .ident ['V'], .sym ';', .ident ['v', 'e', 'c', '3'], .ident ['K'], .sym '=',
   .ident ['n', 'o', 'r', 'm', 'a', 'l', 'i', 'z', 'e'], .sym '(', .ident ['L'], .sym '+', .ident ['V', 'p'],
   .sym ')', .sym ';', .ident ['v', 'e', 'c', '3'], .ident ['e', 'x', 't', '_', 'd', 'o', 't'], .sym '=',
   .ident ['v', 'e', 'c', '3'], .sym '(', .ident ['d', 'o', 't'], .sym '(', .ident ['K'], .sym ',',
   .ident ['N'], .sym ')', .sym ')', .sym ';', .ident ['r', 'e', 't', 'u', 'r', 'n'], .ident ['k', 's'],
   .sym '*', .ident ['e', 'x', 'p'], .sym '(', .ident ['N', 'l'], .sym '*', .sym '(',
   .ident ['e', 'x', 't', '_', 'd', 'o', 't'], .sym '-', .ident ['v', 'e', 'c', '3'], .sym '(', .num ['1'],
   .sym ')', .sym ')', .sym ')', .sym ';', .sym '}']

/-- The function defined by `sgBackBody`. -/
def sgBackDef : FunDef :=
  ⟨.vec3, ['s', 'p', 'h', 'e', 'r', 'i', 'c', 'a', 'l', '_', 'g', 'a', 'u', 's', 's', 'i', 'a', 'n'],
  [(.vec3, ['L']), (.vec3, ['V']), (.vec3, ['N']), (.vec3, ['X']), (.vec3, ['Y']), (.vec3, ['k', 's']), (.vec3, ['N', 'l'])],
  (.cons (.decl .vec3 ['V', 'p']
    (.bin .sub (.bin .mul (.bin .mul (.num ['2', '.', '0', 'f']) (.var ['N'])) (.call ['d', 'o', 't'] (.cons (.var ['N']) (.cons (.var ['V']) .nil)))) (.var ['V'])))
  (.cons (.decl .vec3 ['K']
    (.call ['n', 'o', 'r', 'm', 'a', 'l', 'i', 'z', 'e'] (.cons (.bin .add (.var ['L']) (.var ['V', 'p'])) .nil)))
  (.cons (.decl .vec3 ['e', 'x', 't', '_', 'd', 'o', 't']
    (.call ['v', 'e', 'c', '3'] (.cons (.call ['d', 'o', 't'] (.cons (.var ['K']) (.cons (.var ['N']) .nil))) .nil)))
  (.cons (.ret
    (.bin .mul (.var ['k', 's']) (.call ['e', 'x', 'p'] (.cons (.bin .mul (.var ['N', 'l']) (.bin .sub (.var ['e', 'x', 't', '_', 'd', 'o', 't']) (.call ['v', 'e', 'c', '3'] (.cons (.num ['1']) .nil)))) .nil))))
  .nil))))⟩

/-- The words of `sgRetroBody`. -/
def sgRetroToks : List Token :=
  [.ident ['v', 'e', 'c', '3'],
   .ident ['s', 'p', 'h', 'e', 'r', 'i', 'c', 'a', 'l', '_', 'g', 'a', 'u', 's', 's', 'i', 'a', 'n'],
   .sym '(', .ident ['v', 'e', 'c', '3'], .ident ['L'], .sym ',', .ident ['v', 'e', 'c', '3'], .ident ['V'],
   .sym ',', .ident ['v', 'e', 'c', '3'], .ident ['N'], .sym ',', .ident ['v', 'e', 'c', '3'], .ident ['X'],
   .sym ',', .ident ['v', 'e', 'c', '3'], .ident ['Y'], .sym ',', .ident ['v', 'e', 'c', '3'],
   .ident ['k', 's'], .sym ',', .ident ['v', 'e', 'c', '3'], .ident ['N', 'l'], .sym ')', .sym '{',
   .ident ['v', 'e', 'c', '3'], .ident ['e', 'x', 't', '_', 'd', 'o', 't'], .sym '=',
   .ident ['v', 'e', 'c', '3'], .sym '(', .ident ['d', 'o', 't'], .sym '(', .ident ['L'], .sym ',',
   .ident ['V'], .sym ')', .sym ')', .sym ';', .ident ['r', 'e', 't', 'u', 'r', 'n'], .ident ['k', 's'],
   .sym '*', .ident ['e', 'x', 'p'], .sym '(', .ident ['N', 'l'], .sym '*', .sym '(',
   .ident ['e', 'x', 't', '_', 'd', 'o', 't'], .sym '-', .ident ['v', 'e', 'c', '3'], .sym '(', .num ['1'],
   .sym ')', .sym ')', .sym ')', .sym ';', .sym '}']

/-- The function defined by `sgRetroBody`. -/
def sgRetroDef : FunDef :=
  ⟨.vec3, ['s', 'p', 'h', 'e', 'r', 'i', 'c', 'a', 'l', '_', 'g', 'a', 'u', 's', 's', 'i', 'a', 'n'],
  [(.vec3, ['L']), (.vec3, ['V']), (.vec3, ['N']), (.vec3, ['X']), (.vec3, ['Y']), (.vec3, ['k', 's']), (.vec3, ['N', 'l'])],
  (.cons (.decl .vec3 ['e', 'x', 't', '_', 'd', 'o', 't']
    (.call ['v', 'e', 'c', '3'] (.cons (.call ['d', 'o', 't'] (.cons (.var ['L']) (.cons (.var ['V']) .nil))) .nil)))
  (.cons (.ret
    (.bin .mul (.var ['k', 's']) (.call ['e', 'x', 'p'] (.cons (.bin .mul (.var ['N', 'l']) (.bin .sub (.var ['e', 'x', 't', '_', 'd', 'o', 't']) (.call ['v', 'e', 'c', '3'] (.cons (.num ['1']) .nil)))) .nil))))
  .nil))⟩

/-- The words of `sgMirrorBody`. -/
def sgMirrorToks : List Token :=
  [.ident ['v', 'e', 'c', '3'],
   .ident ['s', 'p', 'h', 'e', 'r', 'i', 'c', 'a', 'l', '_', 'g', 'a', 'u', 's', 's', 'i', 'a', 'n'],
   .sym '(', .ident ['v', 'e', 'c', '3'], .ident ['L'], .sym ',', .ident ['v', 'e', 'c', '3'], .ident ['V'],
   .sym ',', .ident ['v', 'e', 'c', '3'], .ident ['N'], .sym ',', .ident ['v', 'e', 'c', '3'], .ident ['X'],
   .sym ',', .ident ['v', 'e', 'c', '3'], .ident ['Y'], .sym ',', .ident ['v', 'e', 'c', '3'],
   .ident ['k', 's'], .sym ',', .ident ['v', 'e', 'c', '3'], .ident ['N', 'l'], .sym ')', .sym '{',
   .ident ['v', 'e', 'c', '3'], .ident ['R'], .sym '=', .num ['2'], .sym '*', .ident ['d', 'o', 't'],
   .sym '(', .ident ['V'], .sym ',', .ident ['N'], .sym ')', .sym '*', .ident ['N'], .sym '-', .ident ['V'],
   .sym ';', .ident ['v', 'e', 'c', '3'], .ident ['e', 'x', 't', '_', 'd', 'o', 't'], .sym '=',
   .ident ['v', 'e', 'c', '3'], .sym '(', .ident ['d', 'o', 't'], .sym '(', .ident ['L'], .sym ',',
   .ident ['R'], .sym ')', .sym ')', .sym ';', .ident ['r', 'e', 't', 'u', 'r', 'n'], .ident ['k', 's'],
   .sym '*', .ident ['e', 'x', 'p'], .sym '(', .ident ['N', 'l'], .sym '*', .sym '(',
   .ident ['e', 'x', 't', '_', 'd', 'o', 't'], .sym '-', .ident ['v', 'e', 'c', '3'], .sym '(', .num ['1'],
   .sym ')', .sym ')', .sym ')', .sym ';', .sym '}']

/-- The function defined by `sgMirrorBody`. -/
def sgMirrorDef : FunDef :=
  ⟨.vec3, ['s', 'p', 'h', 'e', 'r', 'i', 'c', 'a', 'l', '_', 'g', 'a', 'u', 's', 's', 'i', 'a', 'n'],
  [(.vec3, ['L']), (.vec3, ['V']), (.vec3, ['N']), (.vec3, ['X']), (.vec3, ['Y']), (.vec3, ['k', 's']), (.vec3, ['N', 'l'])],
  (.cons (.decl .vec3 ['R']
    (.bin .sub (.bin .mul (.bin .mul (.num ['2']) (.call ['d', 'o', 't'] (.cons (.var ['V']) (.cons (.var ['N']) .nil)))) (.var ['N'])) (.var ['V'])))
  (.cons (.decl .vec3 ['e', 'x', 't', '_', 'd', 'o', 't']
    (.call ['v', 'e', 'c', '3'] (.cons (.call ['d', 'o', 't'] (.cons (.var ['L']) (.cons (.var ['R']) .nil))) .nil)))
  (.cons (.ret
    (.bin .mul (.var ['k', 's']) (.call ['e', 'x', 'p'] (.cons (.bin .mul (.var ['N', 'l']) (.bin .sub (.var ['e', 'x', 't', '_', 'd', 'o', 't']) (.call ['v', 'e', 'c', '3'] (.cons (.num ['1']) .nil)))) .nil))))
  .nil)))⟩

/-- The words of `sgMomentBody`. -/
def sgMomentToks (u w : Str) : List Token :=
  [.ident ['v', 'e', 'c', '3'],
   .ident ['s', 'p', 'h', 'e', 'r', 'i', 'c', 'a', 'l', '_', 'g', 'a', 'u', 's', 's', 'i', 'a', 'n'],
   .sym '(', .ident ['v', 'e', 'c', '3'], .ident ['L'], .sym ',', .ident ['v', 'e', 'c', '3'], .ident ['V'],
   .sym ',', .ident ['v', 'e', 'c', '3'], .ident ['N'], .sym ',', .ident ['v', 'e', 'c', '3'], .ident ['X'],
   .sym ',', .ident ['v', 'e', 'c', '3'], .ident ['Y'], .sym ',', .ident ['v', 'e', 'c', '3'],
   .ident ['k', 's'], .sym ',', .ident ['v', 'e', 'c', '3'], .ident ['N', 'l'], .sym ')', .sym '{',
   .ident ['f', 'l', 'o', 'a', 't'], .ident ['t'], .sym '=', .num u, .sym '*', .ident ['a', 'c', 'o', 's'],
   .sym '(', .ident ['d', 'o', 't'], .sym '(', .ident ['V'], .sym ',', .ident ['N'], .sym ')', .sym ')',
   .sym ';', .ident ['f', 'l', 'o', 'a', 't'], .ident ['p'], .sym '=', .ident ['a', 't', 'a', 'n'], .sym '(',
   .ident ['d', 'o', 't'], .sym '(', .ident ['V'], .sym ',', .ident ['Y'], .sym ')', .sym ',',
   .ident ['d', 'o', 't'], .sym '(', .ident ['V'], .sym ',', .ident ['X'], .sym ')', .sym ')', .sym '+',
   .num w, .sym ';', .ident ['v', 'e', 'c', '3'], .ident ['R'], .sym '=', .ident ['c', 'o', 's'], .sym '(',
   .ident ['p'], .sym ')', .sym '*', .ident ['s', 'i', 'n'], .sym '(', .ident ['t'], .sym ')', .sym '*',
   .ident ['X'], .sym '+', .ident ['s', 'i', 'n'], .sym '(', .ident ['p'], .sym ')', .sym '*',
   .ident ['s', 'i', 'n'], .sym '(', .ident ['t'], .sym ')', .sym '*', .ident ['Y'], .sym '+',
   .ident ['c', 'o', 's'], .sym '(', .ident ['t'], .sym ')', .sym '*', .ident ['N'], .sym ';',
   .ident ['v', 'e', 'c', '3'], .ident ['e', 'x', 't', '_', 'd', 'o', 't'], .sym '=',
   .ident ['v', 'e', 'c', '3'], .sym '(', .ident ['d', 'o', 't'], .sym '(', .ident ['L'], .sym ',',
   .ident ['R'], .sym ')', .sym ')', .sym ';', .ident ['r', 'e', 't', 'u', 'r', 'n'], .ident ['k', 's'],
   .sym '*', .ident ['e', 'x', 'p'], .sym '(', .ident ['N', 'l'], .sym '*', .sym '(',
   .ident ['e', 'x', 't', '_', 'd', 'o', 't'], .sym '-', .ident ['v', 'e', 'c', '3'], .sym '(', .num ['1'],
   .sym ')', .sym ')', .sym ')', .sym ';', .sym '}']

/-- The function defined by `sgMomentBody`. -/
def sgMomentDef (u w : Str) : FunDef :=
  ⟨.vec3, ['s', 'p', 'h', 'e', 'r', 'i', 'c', 'a', 'l', '_', 'g', 'a', 'u', 's', 's', 'i', 'a', 'n'],
  [(.vec3, ['L']), (.vec3, ['V']), (.vec3, ['N']), (.vec3, ['X']), (.vec3, ['Y']), (.vec3, ['k', 's']), (.vec3, ['N', 'l'])],
  (.cons (.decl .float ['t']
    (.bin .mul (.num u) (.call ['a', 'c', 'o', 's'] (.cons (.call ['d', 'o', 't'] (.cons (.var ['V']) (.cons (.var ['N']) .nil))) .nil))))
  (.cons (.decl .float ['p']
    (.bin .add (.call ['a', 't', 'a', 'n'] (.cons (.call ['d', 'o', 't'] (.cons (.var ['V']) (.cons (.var ['Y']) .nil))) (.cons (.call ['d', 'o', 't'] (.cons (.var ['V']) (.cons (.var ['X']) .nil))) .nil))) (.num w)))
  (.cons (.decl .vec3 ['R']
    (.bin .add (.bin .add (.bin .mul (.bin .mul (.call ['c', 'o', 's'] (.cons (.var ['p']) .nil)) (.call ['s', 'i', 'n'] (.cons (.var ['t']) .nil))) (.var ['X'])) (.bin .mul (.bin .mul (.call ['s', 'i', 'n'] (.cons (.var ['p']) .nil)) (.call ['s', 'i', 'n'] (.cons (.var ['t']) .nil))) (.var ['Y']))) (.bin .mul (.call ['c', 'o', 's'] (.cons (.var ['t']) .nil)) (.var ['N']))))
  (.cons (.decl .vec3 ['e', 'x', 't', '_', 'd', 'o', 't']
    (.call ['v', 'e', 'c', '3'] (.cons (.call ['d', 'o', 't'] (.cons (.var ['L']) (.cons (.var ['R']) .nil))) .nil)))
  (.cons (.ret
    (.bin .mul (.var ['k', 's']) (.call ['e', 'x', 'p'] (.cons (.bin .mul (.var ['N', 'l']) (.bin .sub (.var ['e', 'x', 't', '_', 'd', 'o', 't']) (.call ['v', 'e', 'c', '3'] (.cons (.num ['1']) .nil)))) .nil))))
  .nil)))))⟩

/-- The words of `wardBody`. -/
def wardToks (w : Str) : List Token :=
  [.ident ['v', 'e', 'c', '3'], .ident ['w', 'a', 'r', 'd'], .sym '(', .ident ['v', 'e', 'c', '3'],
   .ident ['L'], .sym ',', .ident ['v', 'e', 'c', '3'], .ident ['V'], .sym ',', .ident ['v', 'e', 'c', '3'],
   .ident ['N'], .sym ',', .ident ['v', 'e', 'c', '3'], .ident ['X'], .sym ',', .ident ['v', 'e', 'c', '3'],
   .ident ['Y'], .sym ',', .ident ['v', 'e', 'c', '3'], .ident ['k', 's'], .sym ',',
   .ident ['v', 'e', 'c', '3'], .ident ['a', 'x'], .sym ',', .ident ['v', 'e', 'c', '3'], .ident ['a', 'y'],
   .sym ')', .sym '{', .ident ['v', 'e', 'c', '3'], .ident ['H'], .sym '=',
   .ident ['n', 'o', 'r', 'm', 'a', 'l', 'i', 'z', 'e'], .sym '(', .ident ['L'], .sym '+', .ident ['V'],
   .sym ')', .sym ';', .ident ['v', 'e', 'c', '3'], .ident ['h', 'a', 'x'], .sym '=', .ident ['d', 'o', 't'],
   .sym '(', .ident ['H'], .sym ',', .ident ['X'], .sym ')', .sym '/', .ident ['a', 'x'], .sym ';',
   .ident ['v', 'e', 'c', '3'], .ident ['h', 'a', 'y'], .sym '=', .ident ['d', 'o', 't'], .sym '(',
   .ident ['H'], .sym ',', .ident ['Y'], .sym ')', .sym '/', .ident ['a', 'y'], .sym ';',
   .ident ['f', 'l', 'o', 'a', 't'], .ident ['h', 'n'], .sym '=', .ident ['d', 'o', 't'], .sym '(',
   .ident ['H'], .sym ',', .ident ['N'], .sym ')', .sym ';', .ident ['f', 'l', 'o', 'a', 't'],
   .ident ['l', 'n'], .sym '=', .ident ['d', 'o', 't'], .sym '(', .ident ['L'], .sym ',', .ident ['N'],
   .sym ')', .sym ';', .ident ['f', 'l', 'o', 'a', 't'], .ident ['v', 'n'], .sym '=', .ident ['d', 'o', 't'],
   .sym '(', .ident ['V'], .sym ',', .ident ['N'], .sym ')', .sym ';', .ident ['i', 'f'], .sym '(',
   .ident ['l', 'n'], .sym '*', .ident ['v', 'n'], .sym '>', .num ['0'], .sym ')', .sym '{',
   .ident ['r', 'e', 't', 'u', 'r', 'n'], .sym '(', .ident ['k', 's'], .sym '/', .sym '(', .num ['4'],
   .sym '*', .num w, .sym '*', .ident ['a', 'x'], .sym '*', .ident ['a', 'y'], .sym '*',
   .ident ['s', 'q', 'r', 't'], .sym '(', .ident ['l', 'n'], .sym '*', .ident ['v', 'n'], .sym ')', .sym ')',
   .sym ')', .sym '*', .ident ['e', 'x', 'p'], .sym '(', .sym '-', .sym '(', .ident ['h', 'a', 'x'], .sym '*',
   .ident ['h', 'a', 'x'], .sym '+', .ident ['h', 'a', 'y'], .sym '*', .ident ['h', 'a', 'y'], .sym ')',
   .sym '/', .sym '(', .ident ['h', 'n'], .sym '*', .ident ['h', 'n'], .sym ')', .sym ')', .sym ';', .sym '}',
   .ident ['e', 'l', 's', 'e'], .sym '{', .ident ['r', 'e', 't', 'u', 'r', 'n'], .ident ['v', 'e', 'c', '3'],
   .sym '(', .num ['0'], .sym ')', .sym ';', .sym '}', .sym '}']

/-- The function defined by `wardBody`. -/
def wardDef (w : Str) : FunDef :=
  ⟨.vec3, ['w', 'a', 'r', 'd'],
  [(.vec3, ['L']), (.vec3, ['V']), (.vec3, ['N']), (.vec3, ['X']), (.vec3, ['Y']), (.vec3, ['k', 's']), (.vec3, ['a', 'x']), (.vec3, ['a', 'y'])],
  (.cons (.decl .vec3 ['H']
    (.call ['n', 'o', 'r', 'm', 'a', 'l', 'i', 'z', 'e'] (.cons (.bin .add (.var ['L']) (.var ['V'])) .nil)))
  (.cons (.decl .vec3 ['h', 'a', 'x']
    (.bin .div (.call ['d', 'o', 't'] (.cons (.var ['H']) (.cons (.var ['X']) .nil))) (.var ['a', 'x'])))
  (.cons (.decl .vec3 ['h', 'a', 'y']
    (.bin .div (.call ['d', 'o', 't'] (.cons (.var ['H']) (.cons (.var ['Y']) .nil))) (.var ['a', 'y'])))
  (.cons (.decl .float ['h', 'n']
    (.call ['d', 'o', 't'] (.cons (.var ['H']) (.cons (.var ['N']) .nil))))
  (.cons (.decl .float ['l', 'n']
    (.call ['d', 'o', 't'] (.cons (.var ['L']) (.cons (.var ['N']) .nil))))
  (.cons (.decl .float ['v', 'n']
    (.call ['d', 'o', 't'] (.cons (.var ['V']) (.cons (.var ['N']) .nil))))
  (.cons (.ite (.bin .gt (.bin .mul (.var ['l', 'n']) (.var ['v', 'n'])) (.num ['0'])) (.cons (.ret
    (.bin .mul (.bin .div (.var ['k', 's']) (.bin .mul (.bin .mul (.bin .mul (.bin .mul (.num ['4']) (.num w)) (.var ['a', 'x'])) (.var ['a', 'y'])) (.call ['s', 'q', 'r', 't'] (.cons (.bin .mul (.var ['l', 'n']) (.var ['v', 'n'])) .nil)))) (.call ['e', 'x', 'p'] (.cons (.bin .div (.neg (.bin .add (.bin .mul (.var ['h', 'a', 'x']) (.var ['h', 'a', 'x'])) (.bin .mul (.var ['h', 'a', 'y']) (.var ['h', 'a', 'y'])))) (.bin .mul (.var ['h', 'n']) (.var ['h', 'n']))) .nil))))
  .nil) (.cons (.ret
    (.call ['v', 'e', 'c', '3'] (.cons (.num ['0']) .nil)))
  .nil))
  .nil)))))))⟩

/-- The words of `retrobeckmannBody`. -/
def retrobeckmannToks (w : Str) : List Token :=
  [.ident ['v', 'e', 'c', '3'], .ident ['r', 'e', 't', 'r', 'o', 'b', 'e', 'c', 'k', 'm', 'a', 'n', 'n'],
   .sym '(', .ident ['v', 'e', 'c', '3'], .ident ['L'], .sym ',', .ident ['v', 'e', 'c', '3'], .ident ['V'],
   .sym ',', .ident ['v', 'e', 'c', '3'], .ident ['N'], .sym ',', .ident ['v', 'e', 'c', '3'], .ident ['X'],
   .sym ',', .ident ['v', 'e', 'c', '3'], .ident ['Y'], .sym ',', .ident ['v', 'e', 'c', '3'],
   .ident ['k', 's'], .sym ',', .ident ['v', 'e', 'c', '3'], .ident ['a'], .sym ')', .sym '{',
   .ident ['v', 'e', 'c', '3'], .ident ['R'], .sym '=', .num ['2'], .sym '*', .ident ['d', 'o', 't'],
   .sym '(', .ident ['V'], .sym ',', .ident ['N'], .sym ')', .sym '*', .ident ['N'], .sym '-', .ident ['V'],
   .sym ';', .ident ['v', 'e', 'c', '3'], .ident ['B'], .sym '=',
   .ident ['n', 'o', 'r', 'm', 'a', 'l', 'i', 'z', 'e'], .sym '(', .ident ['L'], .sym '+', .ident ['R'],
   .sym ')', .sym ';', .ident ['f', 'l', 'o', 'a', 't'], .ident ['b', 'n'], .sym '=', .ident ['d', 'o', 't'],
   .sym '(', .ident ['B'], .sym ',', .ident ['N'], .sym ')', .sym ';', .ident ['f', 'l', 'o', 'a', 't'],
   .ident ['l', 'n'], .sym '=', .ident ['d', 'o', 't'], .sym '(', .ident ['L'], .sym ',', .ident ['N'],
   .sym ')', .sym ';', .ident ['f', 'l', 'o', 'a', 't'], .ident ['v', 'n'], .sym '=', .ident ['d', 'o', 't'],
   .sym '(', .ident ['V'], .sym ',', .ident ['N'], .sym ')', .sym ';', .ident ['r', 'e', 't', 'u', 'r', 'n'],
   .ident ['k', 's'], .sym '/', .sym '(', .num ['4'], .sym '*', .num w, .sym '*', .ident ['a'], .sym '*',
   .ident ['a'], .sym '*', .ident ['l', 'n'], .sym '*', .ident ['v', 'n'], .sym ')', .sym '*',
   .ident ['e', 'x', 'p'], .sym '(', .sym '(', .ident ['b', 'n'], .sym '*', .ident ['b', 'n'], .sym '-',
   .num ['1', '.', '0'], .sym ')', .sym '/', .sym '(', .ident ['a'], .sym '*', .ident ['a'], .sym '*',
   .ident ['b', 'n'], .sym '*', .ident ['b', 'n'], .sym ')', .sym ')', .sym ';', .sym '}']

/-- The function defined by `retrobeckmannBody`. -/
def retrobeckmannDef (w : Str) : FunDef :=
  ⟨.vec3, ['r', 'e', 't', 'r', 'o', 'b', 'e', 'c', 'k', 'm', 'a', 'n', 'n'],
  [(.vec3, ['L']), (.vec3, ['V']), (.vec3, ['N']), (.vec3, ['X']), (.vec3, ['Y']), (.vec3, ['k', 's']), (.vec3, ['a'])],
  (.cons (.decl .vec3 ['R']
    (.bin .sub (.bin .mul (.bin .mul (.num ['2']) (.call ['d', 'o', 't'] (.cons (.var ['V']) (.cons (.var ['N']) .nil)))) (.var ['N'])) (.var ['V'])))
  (.cons (.decl .vec3 ['B']
    (.call ['n', 'o', 'r', 'm', 'a', 'l', 'i', 'z', 'e'] (.cons (.bin .add (.var ['L']) (.var ['R'])) .nil)))
  (.cons (.decl .float ['b', 'n']
    (.call ['d', 'o', 't'] (.cons (.var ['B']) (.cons (.var ['N']) .nil))))
  (.cons (.decl .float ['l', 'n']
    (.call ['d', 'o', 't'] (.cons (.var ['L']) (.cons (.var ['N']) .nil))))
  (.cons (.decl .float ['v', 'n']
    (.call ['d', 'o', 't'] (.cons (.var ['V']) (.cons (.var ['N']) .nil))))
  (.cons (.ret
    (.bin .mul (.bin .div (.var ['k', 's']) (.bin .mul (.bin .mul (.bin .mul (.bin .mul (.bin .mul (.num ['4']) (.num w)) (.var ['a'])) (.var ['a'])) (.var ['l', 'n'])) (.var ['v', 'n']))) (.call ['e', 'x', 'p'] (.cons (.bin .div (.bin .sub (.bin .mul (.var ['b', 'n']) (.var ['b', 'n'])) (.num ['1', '.', '0'])) (.bin .mul (.bin .mul (.bin .mul (.var ['a']) (.var ['a'])) (.var ['b', 'n'])) (.var ['b', 'n']))) .nil))))
  .nil))))))⟩

/-- The words of `abcBody`. -/
def abcToks : List Token :=
  [.ident ['v', 'e', 'c', '3'], .ident ['a', 'b', 'c'], .sym '(', .ident ['v', 'e', 'c', '3'], .ident ['L'],
   .sym ',', .ident ['v', 'e', 'c', '3'], .ident ['V'], .sym ',', .ident ['v', 'e', 'c', '3'], .ident ['N'],
   .sym ',', .ident ['v', 'e', 'c', '3'], .ident ['X'], .sym ',', .ident ['v', 'e', 'c', '3'], .ident ['Y'],
   .sym ',', .ident ['v', 'e', 'c', '3'], .ident ['a'], .sym ',', .ident ['v', 'e', 'c', '3'], .ident ['b'],
   .sym ',', .ident ['v', 'e', 'c', '3'], .ident ['c'], .sym ')', .sym '{', .ident ['v', 'e', 'c', '3'],
   .ident ['H'], .sym '=', .ident ['n', 'o', 'r', 'm', 'a', 'l', 'i', 'z', 'e'], .sym '(', .ident ['L'],
   .sym '+', .ident ['V'], .sym ')', .sym ';', .ident ['f', 'l', 'o', 'a', 't'], .ident ['h', 'n'], .sym '=',
   .ident ['d', 'o', 't'], .sym '(', .ident ['H'], .sym ',', .ident ['N'], .sym ')', .sym ';',
   .ident ['r', 'e', 't', 'u', 'r', 'n'], .ident ['a'], .sym '/', .ident ['p', 'o', 'w'], .sym '(',
   .ident ['v', 'e', 'c', '3'], .sym '(', .num ['1', '.', '0', 'f'], .sym ')', .sym '+', .ident ['b'],
   .sym '*', .ident ['h', 'n'], .sym ',', .ident ['c'], .sym ')', .sym ';', .sym '}']

/-- The function defined by `abcBody`. -/
def abcDef : FunDef :=
  ⟨.vec3, ['a', 'b', 'c'],
  [(.vec3, ['L']), (.vec3, ['V']), (.vec3, ['N']), (.vec3, ['X']), (.vec3, ['Y']), (.vec3, ['a']), (.vec3, ['b']), (.vec3, ['c'])],
  (.cons (.decl .vec3 ['H']
    (.call ['n', 'o', 'r', 'm', 'a', 'l', 'i', 'z', 'e'] (.cons (.bin .add (.var ['L']) (.var ['V'])) .nil)))
  (.cons (.decl .float ['h', 'n']
    (.call ['d', 'o', 't'] (.cons (.var ['H']) (.cons (.var ['N']) .nil))))
  (.cons (.ret
    (.bin .div (.var ['a']) (.call ['p', 'o', 'w'] (.cons (.bin .add (.call ['v', 'e', 'c', '3'] (.cons (.num ['1', '.', '0', 'f']) .nil)) (.bin .mul (.var ['b']) (.var ['h', 'n']))) (.cons (.var ['c']) .nil)))))
  .nil)))⟩

/-- The words of `schlickMaskingBody`. -/
def schlickMaskingToks : List Token :=
  [.ident ['v', 'e', 'c', '3'],
   .ident ['m', 'a', 's', 'k', 'i', 'n', 'g', '_', 's', 'c', 'h', 'l', 'i', 'c', 'k'], .sym '(',
   .ident ['v', 'e', 'c', '3'], .ident ['L'], .sym ',', .ident ['v', 'e', 'c', '3'], .ident ['V'], .sym ',',
   .ident ['v', 'e', 'c', '3'], .ident ['N'], .sym ',', .ident ['v', 'e', 'c', '3'], .ident ['X'], .sym ',',
   .ident ['v', 'e', 'c', '3'], .ident ['Y'], .sym ',', .ident ['v', 'e', 'c', '3'], .ident ['K'], .sym ')',
   .sym '{', .ident ['c', 'o', 'n', 's', 't'], .ident ['f', 'l', 'o', 'a', 't'],
   .ident ['d', 'o', 't', 'L', 'N'], .sym '=', .ident ['d', 'o', 't'], .sym '(', .ident ['L'], .sym ',',
   .ident ['N'], .sym ')', .sym ';', .ident ['c', 'o', 'n', 's', 't'], .ident ['f', 'l', 'o', 'a', 't'],
   .ident ['d', 'o', 't', 'V', 'N'], .sym '=', .ident ['d', 'o', 't'], .sym '(', .ident ['L'], .sym ',',
   .ident ['N'], .sym ')', .sym ';', .ident ['c', 'o', 'n', 's', 't'], .ident ['v', 'e', 'c', '3'],
   .ident ['G', 'L'], .sym '=', .ident ['d', 'o', 't', 'L', 'N'], .sym '/', .sym '(',
   .ident ['d', 'o', 't', 'L', 'N'], .sym '+', .ident ['K'], .sym '*', .sym '(',
   .ident ['d', 'o', 't', 'L', 'N'], .sym '-', .num ['1', '.', '0'], .sym ')', .sym ')', .sym ';',
   .ident ['c', 'o', 'n', 's', 't'], .ident ['v', 'e', 'c', '3'], .ident ['G', 'V'], .sym '=',
   .ident ['d', 'o', 't', 'V', 'N'], .sym '/', .sym '(', .ident ['d', 'o', 't', 'V', 'N'], .sym '+',
   .ident ['K'], .sym '*', .sym '(', .ident ['d', 'o', 't', 'V', 'N'], .sym '-', .num ['1', '.', '0'],
   .sym ')', .sym ')', .sym ';', .ident ['r', 'e', 't', 'u', 'r', 'n'], .ident ['v', 'e', 'c', '3'], .sym '(',
   .ident ['G', 'L'], .sym '*', .ident ['G', 'V'], .sym ')', .sym ';', .sym '}']

/-- The function defined by `schlickMaskingBody`. -/
def schlickMaskingDef : FunDef :=
  ⟨.vec3, ['m', 'a', 's', 'k', 'i', 'n', 'g', '_', 's', 'c', 'h', 'l', 'i', 'c', 'k'],
  [(.vec3, ['L']), (.vec3, ['V']), (.vec3, ['N']), (.vec3, ['X']), (.vec3, ['Y']), (.vec3, ['K'])],
  (.cons (.decl .float ['d', 'o', 't', 'L', 'N']
    (.call ['d', 'o', 't'] (.cons (.var ['L']) (.cons (.var ['N']) .nil))))
  (.cons (.decl .float ['d', 'o', 't', 'V', 'N']
    (.call ['d', 'o', 't'] (.cons (.var ['L']) (.cons (.var ['N']) .nil))))
  (.cons (.decl .vec3 ['G', 'L']
    (.bin .div (.var ['d', 'o', 't', 'L', 'N']) (.bin .add (.var ['d', 'o', 't', 'L', 'N']) (.bin .mul (.var ['K']) (.bin .sub (.var ['d', 'o', 't', 'L', 'N']) (.num ['1', '.', '0']))))))
  (.cons (.decl .vec3 ['G', 'V']
    (.bin .div (.var ['d', 'o', 't', 'V', 'N']) (.bin .add (.var ['d', 'o', 't', 'V', 'N']) (.bin .mul (.var ['K']) (.bin .sub (.var ['d', 'o', 't', 'V', 'N']) (.num ['1', '.', '0']))))))
  (.cons (.ret
    (.call ['v', 'e', 'c', '3'] (.cons (.bin .mul (.var ['G', 'L']) (.var ['G', 'V'])) .nil)))
  .nil)))))⟩

theorem blinn_parse (m : ℕ) (rest : List Token) : pFun (m + 40) (blinnToks ++ rest) = some (blinnDef, rest) := rfl

theorem retroblinn_parse (m : ℕ) (rest : List Token) : pFun (m + 40) (retroblinnToks ++ rest) = some (retroblinnDef, rest) := rfl

theorem lafortune_parse (m : ℕ) (rest : List Token) : pFun (m + 40) (lafortuneToks ++ rest) = some (lafortuneDef, rest) := rfl

theorem isoLafortune_parse (m : ℕ) (rest : List Token) : pFun (m + 40) (isoLafortuneToks ++ rest) = some (isoLafortuneDef, rest) := rfl

theorem schlick_parse (m : ℕ) (rest : List Token) : pFun (m + 40) (schlickToks ++ rest) = some (schlickDef, rest) := rfl

theorem normalizedSchlick_parse (m : ℕ) (rest : List Token) : pFun (m + 40) (normalizedSchlickToks ++ rest) = some (normalizedSchlickDef, rest) := rfl

theorem retroSchlick_parse (m : ℕ) (rest : List Token) : pFun (m + 40) (retroSchlickToks ++ rest) = some (retroSchlickDef, rest) := rfl

theorem sgHalf_parse (m : ℕ) (rest : List Token) : pFun (m + 40) (sgHalfToks ++ rest) = some (sgHalfDef, rest) := rfl

theorem sgBack_parse (m : ℕ) (rest : List Token) : pFun (m + 40) (sgBackToks ++ rest) = some (sgBackDef, rest) := rfl

theorem sgRetro_parse (m : ℕ) (rest : List Token) : pFun (m + 40) (sgRetroToks ++ rest) = some (sgRetroDef, rest) := rfl

theorem sgMirror_parse (m : ℕ) (rest : List Token) : pFun (m + 40) (sgMirrorToks ++ rest) = some (sgMirrorDef, rest) := rfl

theorem sgMoment_parse (u w : Str) (m : ℕ) (rest : List Token) : pFun (m + 40) ((sgMomentToks u w) ++ rest) = some ((sgMomentDef u w), rest) := rfl

theorem ward_parse (w : Str) (m : ℕ) (rest : List Token) : pFun (m + 40) ((wardToks w) ++ rest) = some ((wardDef w), rest) := rfl

theorem retrobeckmann_parse (w : Str) (m : ℕ) (rest : List Token) : pFun (m + 40) ((retrobeckmannToks w) ++ rest) = some ((retrobeckmannDef w), rest) := rfl

theorem abc_parse (m : ℕ) (rest : List Token) : pFun (m + 40) (abcToks ++ rest) = some (abcDef, rest) := rfl

theorem schlickMasking_parse (m : ℕ) (rest : List Token) : pFun (m + 40) (schlickMaskingToks ++ rest) = some (schlickMaskingDef, rest) := rfl

end Alta
