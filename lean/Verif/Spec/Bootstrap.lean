import Verif.Model.Bootstrap
import Verif.Spec.FunctionFile
import Verif.Props.ArgsAccess
/-
What the starting point of a fit must be.
-/
namespace Alta
noncomputable section

/-- Two objects of a plugin that differ only by the coefficients: same class, parametrization and
    attributes that select the shape of the lobe. -/
def LobeObj.Alike : LobeObj → LobeObj → Prop
  | .blinn s, .blinn t => s.par = t.par
  | .retroblinn s, .retroblinn t => s.par = t.par
  | .beckmann s, .beckmann t => s.par = t.par
  | .retrobeckmann s, .retrobeckmann t => s.par = t.par ∧ s.useBack = t.useBack
  | .ward s, .ward t => s.par = t.par
  | .abc s, .abc t => s.par = t.par
  | .diffuse s, .diffuse t => s.par = t.par
  | .sg s, .sg t => s.par = t.par ∧ s.type = t.type ∧ s.a = t.a
  | .isoLafortune s, .isoLafortune t => s.par = t.par ∧ s.n = t.n
  | .lafortune s, .lafortune t => s.par = t.par ∧ s.n = t.n ∧ s.kd = t.kd
  | .schlickFresnel s, .schlickFresnel t => s.par = t.par
  | .normalizedSchlick s, .normalizedSchlick t => s.par = t.par
  | .retroSchlick s, .retroSchlick t => s.par = t.par
  | .schlickMasking s, .schlickMasking t => s.par = t.par
  | .smith s, .smith t => s.par = t.par
  | .walterSmith s, .walterSmith t => s.par = t.par
  | .sgd s, .sgd t => s.par = t.par
  | _, _ => False

mutual
/-- Two functions built in the same way, that differ only by their coefficients. -/
def FT.Alike : FT LobeObj → FT LobeObj → Prop
  | .leaf l, .leaf m => l.Alike m
  | .compound p fs, .compound q gs => p = q ∧ fs.Alike gs
  | .product p f g a b, .product q f' g' a' b' => p = q ∧ a = a' ∧ b = b' ∧ f.Alike f' ∧ g.Alike g'
  | _, _ => False
/-- the members of a compound, with their arguments -/
def FTs.Alike : FTs LobeObj → FTs LobeObj → Prop
  | .nil, .nil => True
  | .cons a f r, .cons b g r' => a = b ∧ f.Alike g ∧ r.Alike r'
  | _, _ => False
end

/-- The class `abc_function`, the only one that changes its input parametrization. -/
def LobeObj.IsAbc : LobeObj → Prop
  | .abc _ => True
  | _ => False

/-- The class and the parametrization of an object are kept, but for the input of the class `abc_function`. -/
def LobeObj.Kept (l m : LobeObj) : Prop :=
  m.ctorIdx = l.ctorIdx ∧ m.toFn.par.dimX = l.toFn.par.dimX ∧ m.toFn.par.dimY = l.toFn.par.dimY ∧
    m.toFn.par.output = l.toFn.par.output ∧ (¬ l.IsAbc → m.toFn.par.input = l.toFn.par.input)

mutual
/-- The second function is built as the first one: same sums and products, with the same parametrization,
    the same arguments and the same fixed parts, of objects of the same classes and dimensions. -/
def FT.Kept : FT LobeObj → FT LobeObj → Prop
  | .leaf l, .leaf m => l.Kept m
  | .compound p fs, .compound q gs => p = q ∧ fs.Kept gs
  | .product p f g a b, .product q f' g' a' b' => p = q ∧ a = a' ∧ b = b' ∧ f.Kept f' ∧ g.Kept g'
  | _, _ => False
/-- the members of a compound, with their arguments -/
def FTs.Kept : FTs LobeObj → FTs LobeObj → Prop
  | .nil, .nil => True
  | .cons a f r, .cons b g r' => a = b ∧ f.Kept g ∧ r.Kept r'
  | _, _ => False
end

mutual
/-- The plugin objects of a function with the arguments each of them is given when there is no option
    `bootstrap` for the whole: those of the member of a sum, those of the whole for a product. -/
def FT.parts (args : SMap) : FT LobeObj → List (SMap × LobeObj)
  | .leaf l => [(args, l)]
  | .compound _ fs => fs.parts
  | .product _ f g _ _ => f.parts args ++ g.parts args
/-- the members of a compound -/
def FTs.parts : FTs LobeObj → List (SMap × LobeObj)
  | .nil => []
  | .cons a f rest => f.parts a ++ rest.parts
end

mutual
/-- No member of a sum has an option `bootstrap` of its own. -/
def FT.Free : FT LobeObj → Prop
  | .leaf _ => True
  | .compound _ fs => fs.Free
  | .product _ f g _ _ => f.Free ∧ g.Free
/-- the members of a compound -/
def FTs.Free : FTs LobeObj → Prop
  | .nil => True
  | .cons a f rest => a.isDefined kBoot = false ∧ f.Free ∧ rest.Free
end

/-- The members of a sum that have no parameter are diffuse lobes and products of which the two parts
    are fixed. -/
def FTs.Plain : FTs LobeObj → Prop
  | .nil => True
  | .cons _ f rest =>
    (f.toFn.nb = 0 → (∃ s, f = .leaf (.diffuse s)) ∨ ∃ p g h, f = .product p g h true true) ∧ rest.Plain

/-- A plugin object can be started with these arguments on these data. -/
def LobeObj.Startable (files : Str → Option Str) (d : Data) (args : SMap) : LobeObj → Prop
  | .diffuse s => args.isDefined kBoot = false ∧ d.dimY ≤ s.par.dimY ∧
    (d.output = .INV_STERADIAN_COSINE_FACTOR ∨ args.isDefined "cos-fit".toList = true →
      ∀ row ∈ d.rows.drop 1, (convertInput (arr row) d.input .CARTESIAN).isSome)
  | .isoLafortune _ => 0 ≤ args.getInt "lobes".toList 1
  | .lafortune s => 0 ≤ args.getInt "lobes".toList 1 ∧ d.rows ≠ [] ∧ d.dimY ≤ s.par.dimY
  | .beckmann _ | .sgd _ => args.isVec kBoot = true ∨ args.get kBoot = [] ∨ (files (args.get kBoot)).isSome
  | _ => True

/-- `true` for the class sgd -/
def LobeObj.isSgd : LobeObj → Bool
  | .sgd _ => true
  | _ => false

/-- `true` for the class diffuse -/
def LobeObj.isDiffuse : LobeObj → Bool
  | .diffuse _ => true
  | _ => false

/-- `v` is the lowest value of the channel `j` among the samples `rows`. -/
def LowestOf (d : Data) (rows : List (List ℝ)) (j : ℕ) (v : ℝ) : Prop :=
  IsLeast {y | ∃ row ∈ rows, y = arr row (d.dimX + j)} v

/-- The vector of the option `bootstrap`: numbers between brackets, each after white space. -/
def GivesVector (args : SMap) (xs : List (Str × Decimal)) : Prop :=
  xs ≠ [] ∧ args.find kBoot = some (bracketed (xs.map fun p => p.1 ++ p.2.text)) ∧
  (∀ p ∈ xs, ∀ c ∈ p.1, isSpace c = true) ∧ ∀ p ∈ xs, p.2.ip ≠ [] ∨ p.2.fp ≠ []

end
end Alta
