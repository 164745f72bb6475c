import Verif.Spec.CommandLine
/-
Independent description of an ALTA file header: lines, each written after a `#`.
-/
namespace Alta

/-- A line of a header. -/
inductive HLine where
  /-- `# text` -/
  | comment (text : Str)
  /-- `#` alone -/
  | empty
  /-- `#KEY value`, `sep` being the white space between them, with a carriage
      return at the end or not -/
  | bind (key sep value : Str) (cr : Bool)
  /-- `#ALTA first second …`, such as `#ALTA HEADER BEGIN` -/
  | alta (first second : Str)

/-- The text of a line. -/
def HLine.text : HLine → Str
  | .comment t => '#' :: ' ' :: t
  | .empty => ['#']
  | .bind k sep v cr => '#' :: (k ++ (sep ++ (v ++ if cr then ['\r'] else [])))
  | .alta a b => '#' :: ("ALTA ".toList ++ (a ++ ' ' :: b))

/-- The text of a header: each line followed by an end of line. -/
def headerText : List HLine → Str
  | [] => []
  | l :: ls => l.text ++ '\n' :: headerText ls

/-- A well formed line. -/
def HLine.WellFormed : HLine → Prop
  | .comment t => '\n' ∉ t
  | .empty => True
  | .bind k sep v _ =>
      IsWord k ∧ k ≠ "ALTA".toList ∧
      (∀ c ∈ sep, isSpace c = true ∧ c ≠ '\n') ∧
      (v ≠ [] → sep ≠ []) ∧
      (∀ c r, v = c :: r → isSpace c = false) ∧ '\n' ∉ v ∧ '\r' ∉ v
  | .alta a b => IsWord a ∧ IsWord b ∧ b ≠ "HEADER".toList

/-- The value given to `k` by the last line that binds it. -/
def lastBinding (k : Str) : List HLine → Option Str
  | [] => none
  | l :: ls =>
    match lastBinding k ls with
    | some v => some v
    | none =>
      match l with
      | .bind k' _ v _ => if k = k' then some v else none
      | _ => none

end Alta
