import Verif.Model.Data2MomentsMain
import Verif.Spec.Moments
import Verif.Spec.Data2Stats
import Verif.Spec.TextFile
import Verif.Spec.Brdf2GnuplotMain
/-
How the file of `data2moments` is read, and what it should contain.
-/
namespace Alta
noncomputable section

/-- The options of a run that computes moments. -/
structure AsksMoments (args : SMap) (writable : Str → Bool) : Prop where
  noHelp : args.isDefined "help".toList = false
  input : args.isDefined "input".toList = true
  output : args.isDefined "output".toList = true ∧ writable (args.get "output".toList) = true
  data : args.isDefined "data".toList = true

/-- A text that is a list of whole numbers, separated by commas and between brackets, with blanks around the numbers. -/
def NumbersText (text : Str) (l : List ℕ) : Prop :=
  ∃ inside, text = '[' :: (inside ++ [']']) ∧ List.Forall₂ (fun part n => part.length ≤ 255 ∧ n < 2 ^ 31 ∧
    ∃ before after, part = before ++ (showNat n ++ after) ∧ Blank before ∧ Blank after) (cutAt ',' inside) l

/-- The option `key` asks for the numbers `l`: it is a list of them, or it is not there and `l` are the default numbers. -/
def AsksNumbers (args : SMap) (key : Str) (default l : List ℕ) : Prop :=
  (∃ text, args.find key = some text ∧ NumbersText text l) ∨ (args.find key = none ∧ l = default)

/-- A line `name = [numbers]`. -/
def momentLine (l : Str) : Option (Str × List ℝ) :=
  match cutAt '=' l with
  | [name, v] => (readVector (v.dropWhile (· = ' '))).map fun x => (name.takeWhile (· ≠ ' '), x)
  | _ => none

/-- The moments of a file: every line is ended by an end of line, and has a name and a vector. -/
def readMoments (file : Str) : Option (List (Str × List ℝ)) := (endedBy '\n' file).bind fun lines => lines.mapM momentLine

/-- The moments of `n` channels, by name. -/
def momentsNamed (n : ℕ) (m : ℕ → Moments) : List (Str × List ℝ) :=
  [("\\mu_0".toList, (List.range n).map fun k => (m k).m0),
   ("\\mu_x".toList, (List.range n).map fun k => (m k).mx),
   ("\\mu_y".toList, (List.range n).map fun k => (m k).my),
   ("\\mu_{xx}".toList, (List.range n).map fun k => (m k).mxx),
   ("\\mu_{xy}".toList, (List.range n).map fun k => (m k).mxy),
   ("\\mu_{yy}".toList, (List.range n).map fun k => (m k).myy),
   ("\\mu_{xxx}".toList, (List.range n).map fun k => (m k).mxxx),
   ("\\mu_{xxy}".toList, (List.range n).map fun k => (m k).mxxy),
   ("\\mu_{xyy}".toList, (List.range n).map fun k => (m k).mxyy),
   ("\\mu_{yyy}".toList, (List.range n).map fun k => (m k).myyy)]

end
end Alta
