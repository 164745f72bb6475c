import Verif.Model.Data2Stats
import Verif.Spec.Metrics
/-
How the file of `data2stats` is read, and what it should contain.
-/
namespace Alta
noncomputable section

/-- The parts of a text between the characters `c`. -/
def cutAt (c : Char) : Str → List Str
  | [] => [[]]
  | x :: r =>
    if x = c then [] :: cutAt c r
    else match cutAt c r with
      | [] => [[x]]
      | h :: t => (x :: h) :: t

/-- A number that is the whole text, but for the white space before. -/
def wholeNumber (s : Str) : Option ℝ := (strtod s).bind fun q => if q.2 = [] then some (q.1 : ℝ) else none

/-- Numbers separated by commas, between brackets. -/
def readVector : Str → Option (List ℝ)
  | '[' :: r => if r.getLast? = some ']' then (cutAt ',' r.dropLast).mapM wholeNumber else none
  | _ => none

/-- A line `NAME :[numbers]`; lines that start with `#` are comments. -/
def statLine (l : Str) : Option (Str × List ℝ) :=
  if l.head? = some '#' then none
  else match cutAt ':' l with
    | [name, v] => (readVector v).map fun x => (name.takeWhile (· ≠ ' '), x)
    | _ => none

/-- The statistics of a file: a name and a vector for each line. -/
def readStats (file : Str) : List (Str × List ℝ) := (cutAt '\n' file).filterMap statLine

/-- The statistics of a list of errors for each channel, by name: sums of absolute values, of squares, of cubes, largest
    absolute value, mean of the squares, and their roots. -/
def statsOf (n : ℕ) (size : ℕ) (err : ℕ → List ℝ) : List (Str × List ℝ) :=
  [("L1".toList, (List.range n).map fun c => ((err c).map fun e => |e|).sum),
   ("L2".toList, (List.range n).map fun c => √ ((err c).map fun e : ℝ => e ^ 2).sum),
   ("L3".toList, (List.range n).map fun c => ((err c).map fun e => |e| ^ 3).sum ^ ((1 : ℝ) / 3)),
   ("LINF".toList, (List.range n).map fun c => normInf (err c)),
   ("MSE".toList, (List.range n).map fun c => ((err c).map fun e : ℝ => e ^ 2).sum / (size : ℝ)),
   ("RMSE".toList, (List.range n).map fun c => √ (((err c).map fun e : ℝ => e ^ 2).sum / (size : ℝ)))]

/-- All the numbers as they are printed. -/
def printedStats (fmt : ℝ → Decimal) (l : List (Str × List ℝ)) : List (Str × List ℝ) :=
  l.map fun s => (s.1, s.2.map fun x => ((fmt x).value : ℝ))

end
end Alta
