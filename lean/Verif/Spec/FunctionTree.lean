import Verif.Model.FunctionTree
import Verif.Spec.CommandLine
/-
What a user writes to describe a function, and the function it stands for.
-/
namespace Alta
variable {L : Type}

/-- A term: the name of a plugin followed by options, such as
    `libnonlinear_function_blinn.so --fresnel libnonlinear_fresnel_schlick.so --fixed-lobe`. -/
structure Term where
  name : Str
  opts : List Item

/-- The words of a term. -/
def Term.words (t : Term) : List Str := t.name :: lineWords t.opts

/-- The text of a term. -/
def Term.text (t : Term) : Str := joinWords t.words

/-- The value an option has in a term (the name of the plugin being the value of `func`). -/
def Term.binding (t : Term) (k : Str) : Option Str := firstBinding k (.word kFunc t.name :: t.opts)

/-- The term is read as itself: no comma, no bracket, and the options are well written. -/
structure Term.Readable (t : Term) : Prop where
  words : ∀ w ∈ t.words, IsWord w ∧ ',' ∉ w ∧ '[' ∉ w ∧ ']' ∉ w
  name : ∀ r, t.name ≠ '-' :: r
  opts : ReadableLine t.opts

/-- The object of the plugin `n`, when it is a nonlinear function. -/
def leafOf (lib : Str → Option (Provider L)) (p : Par) (n : Str) : Option (FT L) :=
  match lib n with
  | some pr => if pr.nonlinear then some (.leaf (pr.make p)) else none
  | none => none

/-- The function a term stands for: the object of the plugin, multiplied by the Fresnel term if there
    is one. -/
def Term.function (lib : Str → Option (Provider L)) (parOf : L → Par) (p : Par) (t : Term) : Option (FT L) :=
  match t.binding kFresnel with
  | none => leafOf lib p t.name
  | some [] => leafOf lib p t.name
  | some v =>
    match leafOf lib p t.name, leafOf lib p v with
    | some f, some g => some (.product (productPar (f.par parOf) (g.par parOf)) f g
        (t.binding kFixedLobe).isSome (t.binding kFixedFresnel).isSome)
    | _, _ => none

/-- The text of a sum of terms: `[t1, t2, t3]`. -/
def sumText : List Term → Str
  | [] => ['[', ']']
  | t :: ts => '[' :: (t.text ++ (ts.map fun u => ',' :: ' ' :: u.text).flatten ++ [']'])

/-- The members of the compound a sum of terms stands for: each is the function of a term, with the
    arguments of this term. -/
def AreMembers (lib : Str → Option (Provider L)) (parOf : L → Par) (p : Par) (ts : List Term)
    (members : List (SMap × FT L)) : Prop :=
  List.Forall₂ (fun t m => (∀ k, m.1.find k = t.binding k) ∧ t.function lib parOf p = some m.2) ts members

end Alta
