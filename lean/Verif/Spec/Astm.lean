import Verif.Spec.TextFile
import Verif.Spec.CommandLine
import Verif.Model.Segment
/-
Independent description of an ASTM file (C74): lines `KEY value`, a line `VARS` with the names of the
columns, then lines of numbers.
-/
namespace Alta

/-- A line `KEY value`, after some white space or empty lines; the value begins with its white
    space. -/
structure AstmEntry where
  before : Str
  key : Str
  value : Str

def AstmEntry.text (e : AstmEntry) : Str := e.before ++ (e.key ++ e.value)

def AstmEntry.WellFormed (e : AstmEntry) : Prop :=
  (∀ c ∈ e.before, isSpace c = true) ∧ IsWord e.key ∧ e.key ≠ "VARS".toList ∧ '\n' ∉ e.value ∧
  ∀ c r, e.value = c :: r → isSpace c = true

/-- The name of a column; what follows the first word does not matter. -/
structure AstmColumn where
  before : Str
  name : Str
  after : Str

def AstmColumn.text (c : AstmColumn) : Str := c.before ++ (c.name ++ c.after)

def AstmColumn.WellFormed (v : AstmColumn) : Prop :=
  Blank v.before ∧ IsWord v.name ∧ (∀ c r, v.after = c :: r → isSpace c = true) ∧
  ',' ∉ v.text ∧ '\n' ∉ v.text ∧ v.text.length ≤ 255

/-- The names, with commas between them. -/
def columnsText : List AstmColumn → Str
  | [] => []
  | [v] => v.text
  | v :: w :: vs => v.text ++ ',' :: columnsText (w :: vs)

/-- white space or commas -/
def Separator (s : Str) : Prop := ∀ c ∈ s, c = ',' ∨ (isSpace c = true ∧ c ≠ '\n')

/-- Each number has a digit; numbers are separated by commas or white space. -/
def CommaFields : List (Str × Decimal) → Prop
  | [] => True
  | (sep, d) :: fs =>
    Separator sep ∧ (d.ip ≠ [] ∨ d.fp ≠ []) ∧ (∀ f ∈ fs.head?, f.1 ≠ []) ∧ CommaFields fs

/-- A line after the header. -/
inductive AstmLine where
  /-- a line without a comma -/
  | other (t : Str)
  /-- numbers, with at least one comma -/
  | row (r : TextRow)

def AstmLine.text : AstmLine → Str
  | .other t => t
  | .row r => r.text

/-- a row of numbers with a comma somewhere -/
def CommaRow (r : TextRow) : Prop :=
  CommaFields r.fields ∧ Separator r.trailing ∧ ',' ∈ r.text

def AstmLine.WellFormed : AstmLine → Prop
  | .other t => ',' ∉ t ∧ '\n' ∉ t
  | .row r => CommaRow r

/-- Lines, each with its end. -/
def astmLines : List Str → Str
  | [] => []
  | l :: ls => l ++ '\n' :: astmLines ls

def astmBodyRows : List AstmLine → List TextRow
  | [] => []
  | .row r :: ls => r :: astmBodyRows ls
  | .other _ :: ls => astmBodyRows ls

/-- The text of a file. -/
def astmText (es : List AstmEntry) (before : Str) (vs : List AstmColumn) (body : Str) : Str :=
  astmLines (es.map AstmEntry.text) ++ (before ++ ("VARS".toList ++ (columnsText vs ++ '\n' :: body)))

/-- The value of the last line with the key `k`. -/
def astmValue (k : Str) : List AstmEntry → Option Str
  | [] => none
  | e :: es =>
    match astmValue k es with
    | some v => some v
    | none => if e.key = k then some e.value else none

/-- A file that declares `n` points. -/
def DeclaresPoints (es : List AstmEntry) (n : ℕ) : Prop :=
  ∃ ws tail, astmValue "NUM_POINTS".toList es = some (ws ++ (showNat n ++ tail)) ∧ Blank ws ∧ Blank tail

/-- A well formed header. -/
def AstmHeaderOk (es : List AstmEntry) (before : Str) (vs : List AstmColumn) : Prop :=
  (∀ e ∈ es, e.WellFormed) ∧ (∀ c ∈ before, isSpace c = true) ∧ vs ≠ [] ∧ (∀ v ∈ vs, v.WellFormed) ∧
  (∀ v ∈ vs.head?, v.before ≠ [])

/-- The names of the angles. -/
def angleNames : List Str := ["theta_i".toList, "phi_i".toList, "theta_s".toList, "phi_s".toList]

/-- A data set of the columns `names`: its samples are the rows, in the order of the file. -/
structure HoldsRows (d : Store ℝ) (names : List Str) (rows : List TextRow) : Prop where
  size : d.size = rows.length
  stored : d.raw.length = rows.length * names.length
  dimX : d.dimX = (names.filter (· ∈ angleNames)).length
  dims : d.dimX + d.dimY = names.length
  input : d.input = if d.dimX = 4 then .SPHERICAL_TL_PL_TV_PV else .UNKNOWN_INPUT
  sample : ∀ (i : ℕ) (r : TextRow), rows[i]? = some r → d.get i = some (r.values.take names.length)

end Alta
