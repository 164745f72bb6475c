import Verif.Model.Args
/-
Decimal notation of numbers, as a specification of what is written in text.
-/
namespace Alta

/-- the character of a digit -/
def digitChar (d : ℕ) : Char := Char.ofNat ('0'.toNat + d)

/-- decimal notation of a natural number (what `out << n` writes) -/
def showNat (n : ℕ) : Str :=
  if n < 10 then [digitChar n] else showNat (n / 10) ++ [digitChar (n % 10)]
termination_by n
decreasing_by omega

/-- decimal notation of an integer -/
def showInt (z : ℤ) : Str := if z < 0 then '-' :: showNat z.natAbs else showNat z.natAbs

/-- A decimal number as it is written: sign, integer digits, fractional digits,
    exponent. -/
structure Decimal where
  neg : Bool
  ip : List (Fin 10)
  fp : List (Fin 10)
  exp : Option ℤ

/-- digits written one after the other -/
def showDigits (l : List (Fin 10)) : Str := l.map fun d : Fin 10 => digitChar d.val

/-- the number written by a list of digits -/
def digitsNum (l : List (Fin 10)) : ℕ := l.foldl (fun (n : ℕ) (d : Fin 10) => 10 * n + d.val) 0

/-- The text of a decimal number; the point is written when there are fractional
    digits. -/
def Decimal.text (d : Decimal) : Str :=
  (if d.neg then ['-'] else []) ++ showDigits d.ip ++
  (if d.fp = [] then [] else '.' :: showDigits d.fp) ++
  (match d.exp with | none => [] | some e => 'e' :: showInt e)

/-- Its value. -/
def Decimal.value (d : Decimal) : ℚ :=
  let m : ℚ := (digitsNum d.ip + (digitsNum d.fp : ℚ) / 10 ^ d.fp.length) * 10 ^ (d.exp.getD 0)
  if d.neg then -m else m

end Alta
