import Verif.Spec.Decimal
import Mathlib.Data.Real.Basic
import Mathlib.Data.List.Forall2
/-
Independent description of the body of an ALTA text file and of what should be loaded
from it.
-/
namespace Alta

/-- A line of numbers: each one written after some white space, then white space. -/
structure TextRow where
  fields : List (Str × Decimal)
  trailing : Str

/-- The text of the numbers. -/
def fieldsText : List (Str × Decimal) → Str
  | [] => []
  | (sep, d) :: fs => sep ++ (d.text ++ fieldsText fs)

/-- The text of a row. -/
def TextRow.text (r : TextRow) : Str := fieldsText r.fields ++ r.trailing

/-- The numbers of a row. -/
noncomputable def TextRow.values (r : TextRow) : List ℝ := r.fields.map fun f => ((f.2.value : ℚ) : ℝ)

/-- white space inside a line -/
def Blank (s : Str) : Prop := ∀ c ∈ s, isSpace c = true ∧ c ≠ '\n'

/-- Each number has a digit; numbers are separated by white space. -/
def FieldsOk : List (Str × Decimal) → Prop
  | [] => True
  | (sep, d) :: fs =>
    Blank sep ∧ (d.ip ≠ [] ∨ d.fp ≠ []) ∧ (∀ f ∈ fs.head?, f.1 ≠ []) ∧ FieldsOk fs

/-- A well formed row. -/
def TextRow.WellFormed (r : TextRow) : Prop := r.fields ≠ [] ∧ FieldsOk r.fields ∧ Blank r.trailing

/-- A line of the body. -/
inductive BodyLine where
  | blank
  | comment (t : Str)
  | row (r : TextRow)

/-- The text of a line. -/
def BodyLine.text : BodyLine → Str
  | .blank => []
  | .comment t => '#' :: t
  | .row r => r.text

def BodyLine.WellFormed : BodyLine → Prop
  | .blank => True
  | .comment t => '\n' ∉ t
  | .row r => r.WellFormed

/-- The text of the body. -/
def bodyText : List BodyLine → Str
  | [] => []
  | l :: ls => l.text ++ '\n' :: bodyText ls

/-- The rows of the body. -/
def bodyRows : List BodyLine → List TextRow
  | [] => []
  | .row r :: ls => r :: bodyRows ls
  | _ :: ls => bodyRows ls

/-- `lo ≤ v ≤ hi`, component by component -/
def Inside (lo v hi : List ℝ) : Prop := List.Forall₂ (· ≤ ·) lo v ∧ List.Forall₂ (· ≤ ·) v hi

/-- How the interval of a value is made: kinds of widths. -/
inductive WidthMode where
  | absolute
  | relative
  /-- what the code does for `--dt-max` -/
  | greatest

/-- Bounds of the interval of `v` for the widths `a` below and `b` above. -/
noncomputable def intervalBounds (m : WidthMode) (v a b : ℝ) : ℝ × ℝ :=
  match m with
  | .absolute => (v - a, v + b)
  | .relative => (v - a * v, v + b * v)
  | .greatest => (v + max (-(a * v)) (-a), v + max (b * v) b)

end Alta
