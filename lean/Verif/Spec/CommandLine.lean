import Verif.Model.Args
/-
Independent description of a command line: a sequence of items, each written as
some words, each giving at most one (option, value) binding.
-/
namespace Alta

/-- the word that names an option -/
def optWord (k : Str) : Str := '-' :: '-' :: k

/-- An element of a command line. -/
inductive Item where
  /-- a word that is not an option name -/
  | stray (w : Str)
  /-- an option without a value -/
  | flag (k : Str)
  /-- an option followed by its value -/
  | word (k w : Str)
  /-- an option followed by a bracketed value cut into several words -/
  | vec (k w : Str) (ws : List Str)

/-- The words of an item. -/
def Item.words : Item → List Str
  | .stray w => [w]
  | .flag k => [optWord k]
  | .word k w => [optWord k, w]
  | .vec k w ws => optWord k :: w :: ws

/-- a word: not empty, no white space -/
def IsWord (w : Str) : Prop := w ≠ [] ∧ ∀ c ∈ w, isSpace c = false

/-- words joined by one space -/
def joinWords : List Str → Str
  | [] => []
  | [w] => w
  | w :: ws => w ++ ' ' :: joinWords ws

/-- The binding an item gives. -/
def Item.binding : Item → Option (Str × Str)
  | .stray _ => none
  | .flag k => some (k, [])
  | .word k w => some (k, w)
  | .vec k w ws => some (k, joinWords (w :: ws))

/-- The words of a command line. -/
def lineWords (is : List Item) : List Str := is.flatMap Item.words

/-- Is the item written so that it is read as itself, when `next` are the words
    after it? -/
def Item.Readable (next : List Str) : Item → Prop
  | .stray w => ∀ k, w ≠ optWord k
  -- nothing follows, or the next word starts with a dash
  | .flag _ => next = [] ∨ ∃ w ws, next = ('-' :: w) :: ws
  -- the value does not start with a dash and is not an unclosed bracket
  | .word _ w => (∀ r, w ≠ '-' :: r) ∧ ((∃ r, w = '[' :: r) → ∃ r, w = r ++ [']'])
  -- an opening bracket closed by the last word, or never
  | .vec _ w ws => (∃ r, w = '[' :: r) ∧ (∀ r, w ≠ r ++ [']']) ∧
      (∀ u ∈ (w :: ws).dropLast, u ≠ [] ∧ ∀ r, u ≠ r ++ [']']) ∧
      (next = [] ∨ ∃ r, (w :: ws).getLast? = some (r ++ [']']))

/-- A command line whose items are read as themselves. -/
def ReadableLine : List Item → Prop
  | [] => True
  | i :: is => i.Readable (lineWords is) ∧ ReadableLine is

/-- The value of the first item that binds `k`. -/
def firstBinding (k : Str) : List Item → Option Str
  | [] => none
  | i :: is =>
    match i.binding with
    | some (k', v) => if k = k' then some v else firstBinding k is
    | none => firstBinding k is

end Alta
