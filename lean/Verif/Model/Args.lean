import Mathlib.Data.Char
import Mathlib.Data.List.Lex
import Mathlib.Data.Rat.Defs
import Mathlib.Algebra.Order.Ring.Rat
/-
Model of the class `arguments`: command line parser, typed access, command line
reconstruction and file header parser.

Modelled: /repo/sources/core/args.h 40-516.

Simplifications, valid for the whole file:
* `std::string` is a list of characters without NUL (so that `c_str()` is the
  whole string).
* `std::map<string,string>` is the list of its entries in iteration order
  (increasing keys).
* `isspace` and the whitespace skipped by `>>` are those of the C locale.
* streams are the list of the characters not read yet.
-/
namespace Alta

/-- `std::string` -/
abbrev Str := List Char

/-- `std::isspace` in the C locale. -/
def isSpace (c : Char) : Bool :=
  c = ' ' || c = '\t' || c = '\n' || c = '\x0b' || c = '\x0c' || c = '\r'

/-- the entries of a `std::map<std::string, std::string>` in iteration order -/
abbrev SMap := List (Str × Str)

/-- `std::map::find` -/
def SMap.find (m : SMap) (k : Str) : Option Str :=
  match m with
  | [] => none
  | (k', v) :: r => if k = k' then some v else SMap.find r k

/-- `std::map::insert`: does nothing when the key is present.  Used at
    /repo/sources/core/args.h 106. -/
def SMap.insert (m : SMap) (k v : Str) : SMap :=
  match m with
  | [] => [(k, v)]
  | (k', v') :: r =>
    if k < k' then (k, v) :: (k', v') :: r
    else if k = k' then (k', v') :: r
    else (k', v') :: SMap.insert r k v

/-- `arguments::update`, i.e. `_map[key] = val`.  /repo/sources/core/args.h 157-160. -/
def SMap.update (m : SMap) (k v : Str) : SMap :=
  match m with
  | [] => [(k, v)]
  | (k', v') :: r =>
    if k < k' then (k, v) :: (k', v') :: r
    else if k = k' then (k', v) :: r
    else (k', v') :: SMap.update r k v

/-- `next[next.size()-1] == ']'` for a non empty string.
    /repo/sources/core/args.h 73, 78. -/
def endsBracket (s : Str) : Bool := s.getLast? = some ']'

/-- The inner `while` of the constructor: words are appended to `data` until one
    ends with `]`.  Result: the joined text and the unread words; `none` when an
    empty word is met, because the code then indexes an empty string at
    `size()-1`.  /repo/sources/core/args.h 75-95. -/
def joinVec (data : Str) (cur : Str) : List Str → Option (Str × List Str)
  | [] => some (data, [])
  | next :: rest =>
    if cur = [] then none
    else if endsBracket cur then some (data, next :: rest)
    else joinVec (data ++ ' ' :: next) next rest

theorem joinVec_length (data cur : Str) (l : List Str) (d : Str) (r : List Str)
    (h : joinVec data cur l = some (d, r)) : r.length ≤ l.length := by
  induction l generalizing data cur with
  | nil => simp only [joinVec] at h; simp_all
  | cons n rest ih =>
    simp only [joinVec] at h
    split at h
    · simp at h
    · split at h
      · simp only [Option.some.injEq, Prod.mk.injEq] at h; rw [← h.2]
      · exact le_trans (ih _ _ h) (Nat.le_succ _)

/-- The constructor `arguments(argc, argv)`, starting from the map `m`; `none`
    when the behaviour is undefined (see `joinVec`).
    /repo/sources/core/args.h 52-108. -/
def parseArgs (argv : List Str) (m : SMap) : Option SMap :=
  match argv with
  | [] => some m
  | temp :: rest =>
    if temp.take 2 = ['-', '-'] then
      let key := temp.drop 2
      match rest with
      | [] => some (m.insert key [])
      | next :: rest' =>
        if next.head? = some '-' then parseArgs (next :: rest') (m.insert key [])
        else if next.head? = some '[' ∧ ¬ endsBracket next then
          match h : joinVec next next rest' with
          | none => none
          | some (data, r) =>
            have := joinVec_length _ _ _ _ _ h
            parseArgs r (m.insert key data)
        else parseArgs rest' (m.insert key next)
    else parseArgs rest m
termination_by argv.length
decreasing_by all_goals simp_all <;> omega

/-- `arguments::is_defined`.  /repo/sources/core/args.h 114-124. -/
def SMap.isDefined (m : SMap) (k : Str) : Bool := (m.find k).isSome

/-- `arguments::operator[]`.  /repo/sources/core/args.h 143-154. -/
def SMap.get (m : SMap) (k : Str) : Str := (m.find k).getD []

/-- `arguments::is_vec`.  /repo/sources/core/args.h 130-140. -/
def SMap.isVec (m : SMap) (k : Str) : Bool :=
  match m.find k with
  | some v => v.head? = some '['
  | none => false

/-- `arguments::get_string`.  /repo/sources/core/args.h 167-173. -/
def SMap.getString (m : SMap) (k : Str) (d : Str) : Str :=
  match m.find k with
  | some v => v
  | none => d

/-! Numbers in text -/

/-- value of a digit -/
def digitVal (c : Char) : Nat := c.toNat - '0'.toNat

/-- is a decimal digit -/
def isDigit (c : Char) : Bool := '0' ≤ c ∧ c ≤ '9'

/-- value of a string of digits, most significant first -/
def digitsVal (s : Str) : Nat := s.foldl (fun n c => 10 * n + digitVal c) 0

/-- an optional sign: (is negative, rest) -/
def takeSign : Str → Bool × Str
  | '-' :: r => (true, r)
  | '+' :: r => (false, r)
  | r => (false, r)

/-- `atoi` without the overflow: white space, optional sign, digits; 0 when there
    is no digit. -/
def atoi (s : Str) : Int :=
  let (neg, r) := takeSign (s.dropWhile isSpace)
  let n := digitsVal (r.takeWhile isDigit)
  if neg then -(n : Int) else n

/-- `strtod` for decimal numbers, in exact arithmetic: the value and the
    unread text, `none` when no number can be read.  Hexadecimal numbers, `inf`
    and `nan` are not modelled; the value is not rounded to a double. -/
def strtod (s : Str) : Option (ℚ × Str) :=
  let (neg, r) := takeSign (s.dropWhile isSpace)
  let ip := r.takeWhile isDigit
  let r1 := r.dropWhile isDigit
  let (fp, r2) := match r1 with
    | '.' :: q => (q.takeWhile isDigit, q.dropWhile isDigit)
    | _ => ([], r1)
  if ip = [] ∧ fp = [] then none
  else
    let mant : ℚ := (digitsVal (ip ++ fp) : ℚ) / 10 ^ fp.length
    let (scale, r3) : ℚ × Str := match r2 with
      | c :: q =>
        if c = 'e' ∨ c = 'E' then
          let (en, q1) := takeSign q
          let ds := q1.takeWhile isDigit
          if ds = [] then (1, r2)
          else (if en then 1 / 10 ^ digitsVal ds else 10 ^ digitsVal ds, q1.dropWhile isDigit)
        else (1, r2)
      | [] => (1, r2)
    some ((if neg then -(mant * scale) else mant * scale), r3)

/-- `atof`: the value read by `strtod`, 0 when there is none. -/
def atof (s : Str) : ℚ :=
  match strtod s with
  | some (x, _) => x
  | none => 0

/-- `arguments::get_int`.  /repo/sources/core/args.h 221-227. -/
def SMap.getInt (m : SMap) (k : Str) (d : Int) : Int :=
  match m.find k with
  | some v => atoi v
  | none => d

/-- `arguments::get_float`, without the rounding to `float`.
    /repo/sources/core/args.h 180-186. -/
def SMap.getFloat (m : SMap) (k : Str) (d : ℚ) : ℚ :=
  match m.find k with
  | some v => atof v
  | none => d

/-- `arguments::get_double` in C++11: `none` is the `std::invalid_argument`
    thrown by `std::stod`.  /repo/sources/core/args.h 192-213. -/
def SMap.getDouble (m : SMap) (k : Str) (d : ℚ) : Option ℚ :=
  match m.find k with
  | some v => (strtod v).map (·.1)
  | none => some d

/-- `s.find(',', 0)` used to cut the first element: the text before the first
    comma and the text after it. -/
def cutComma (s : Str) : Str × Option Str :=
  match s with
  | [] => ([], none)
  | c :: r =>
    if c = ',' then ([], some r)
    else
      let (a, b) := cutComma r
      (c :: a, b)

theorem cutComma_length (s a r : Str) (h : cutComma s = (a, some r)) : r.length < s.length := by
  induction s generalizing a with
  | nil => simp [cutComma] at h
  | cons c s ih =>
    simp only [cutComma] at h
    split at h
    · simp only [Prod.mk.injEq, Option.some.injEq] at h; rw [← h.2]; simp
    · simp only [Prod.mk.injEq] at h
      have := ih (cutComma s).1 (by rw [← h.2])
      simp only [List.length_cons]; omega

/-- The elements found by `get_vec(key)` after the opening bracket: cut at each
    comma; the last character of the last element is dropped.
    /repo/sources/core/args.h 324-343. -/
def vecElements (s : Str) : List Str :=
  match h : cutComma s with
  | (a, some r) =>
    have := cutComma_length s a r h
    a :: vecElements r
  | (a, none) => [a.dropLast]
termination_by s.length

/-- `arguments::get_vec(key)` for strings.  /repo/sources/core/args.h 314-345. -/
def SMap.getVecStr (m : SMap) (k : Str) : List Str :=
  match m.find k with
  | some ('[' :: r) => vecElements r
  | _ => []

/-- The filling loop of `get_vec(key, size, default)`: `n` places remain to be
    filled, the elements are read from `s`; the places not reached keep the
    default value.  /repo/sources/core/args.h 246-266. -/
def fillVec (d : ℚ) : Nat → Str → List ℚ
  | 0, _ => []
  | n + 1, s =>
    match cutComma s with
    | (a, some r) => atof a :: fillVec d n r
    | (a, none) => atof a.dropLast :: List.replicate n d

/-- `arguments::get_vec(key, size, default_value)`.
    /repo/sources/core/args.h 234-275. -/
def SMap.getVec (m : SMap) (k : Str) (size : Nat) (d : ℚ) : List ℚ :=
  match m.find k with
  | some ('[' :: r) => fillVec d size r
  | _ => List.replicate size (m.getFloat k d)

/-- `arguments::get_cmd`.  /repo/sources/core/args.h 376-393. -/
def SMap.getCmd (m : SMap) : Str :=
  match m with
  | [] => []
  | (k, v) :: r =>
    (if k = [] then [] else [' ', '-', '-'] ++ k ++ [' '] ++ v) ++ SMap.getCmd r

/-- The words read by `while(stream.good()) { stream >> temp; push_back(temp); }`:
    a stream that ends with white space gives one more, empty, word.
    /repo/sources/core/args.h 400-412. -/
def streamWords (s : Str) : List Str :=
  let r := s.dropWhile isSpace
  let w := r.takeWhile (fun c => !isSpace c)
  let r' := r.dropWhile (fun c => !isSpace c)
  match _h : r' with
  | [] => [w]
  | c :: r'' => w :: streamWords (c :: r'')
termination_by s.length
decreasing_by
  have h1 : (List.dropWhile (fun c => !isSpace c) (List.dropWhile isSpace s)) = c :: r'' := _h
  have h2 : (c :: r'').length ≤ (List.dropWhile isSpace s).length := by
    rw [← h1]; exact (List.dropWhile_sublist _).length_le
  have h3 : (List.dropWhile isSpace s).length ≤ s.length := (List.dropWhile_sublist _).length_le
  have h4 : isSpace c = true := by
    have := List.head?_dropWhile_not (fun c => !isSpace c) (List.dropWhile isSpace s)
    rw [h1] at this; simpa using this
  rcases Nat.lt_or_ge (c :: r'').length s.length with h5 | h5
  · exact h5
  · exfalso
    have e2 : c :: r'' = List.dropWhile isSpace s := by
      rw [← h1]; exact (List.dropWhile_sublist _).eq_of_length (by rw [h1]; omega)
    have := List.head?_dropWhile_not isSpace s
    rw [← e2] at this
    simp [h4] at this

/-- `arguments::create_arguments`.  /repo/sources/core/args.h 397-436. -/
def createArguments (s : Str) : Option SMap := parseArgs (streamWords s) []

/-- `arguments::get_pair<int>`, for a value made of two words.
    /repo/sources/core/args.h 350-372.  `none` when a word is missing: the code then
    returns indeterminate values. -/
def SMap.getPairInt (m : SMap) (k : Str) : Option (Int × Int) :=
  match m.find k with
  | some v =>
    match streamWords v with
    | a :: b :: _ => if a = [] ∨ b = [] then none else some (atoi a, atoi b)
    | _ => none
  | none => none

/-! File header -/

/-- one word read by `>>`: the word and the text after it -/
def readWord (s : Str) : Str × Str :=
  let r := s.dropWhile isSpace
  (r.takeWhile (fun c => !isSpace c), r.dropWhile (fun c => !isSpace c))

/-- `std::getline`: the line and the text after the end of line. -/
def getLine (s : Str) : Str × Str :=
  (s.takeWhile (· ≠ '\n'), (s.dropWhile (· ≠ '\n')).drop 1)

/-- What one header line (without its `#`) does: `none` ends the header.
    /repo/sources/core/args.h 469-505. -/
def headerLine (line : Str) (m : SMap) : Option SMap :=
  if line.head? = some ' ' then some m
  else
    let (key, r) := readWord line
    if key = [] then some m
    else if key = "ALTA".toList then
      let (first, r1) := readWord r
      let (second, _) := readWord r1
      if second = "HEADER".toList then
        if first ≠ "END".toList then some (m.update "TYPE".toList second) else none
      else some m
    else some (m.update key ((r.dropWhile isSpace).takeWhile (· ≠ '\r')))

/-- `arguments::parse_header`, from the map `m`: the bindings and the text not
    read.  /repo/sources/core/args.h 458-516. -/
def parseHeaderFrom (s : Str) (m : SMap) : SMap × Str :=
  match s with
  | '#' :: r =>
    match headerLine (getLine r).1 m with
    | some m' => parseHeaderFrom (getLine r).2 m'
    | none => (m, (getLine r).2)
  | _ => (m, s)
termination_by s.length
decreasing_by
  simp only [getLine, List.length_cons, List.length_drop]
  have := (List.dropWhile_sublist (l := r) (· ≠ '\n')).length_le
  omega

/-- `arguments::parse_header`. -/
def parseHeader (s : Str) : SMap × Str := parseHeaderFrom s []

end Alta
