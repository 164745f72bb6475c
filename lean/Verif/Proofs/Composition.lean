import Verif.Props.ReciprocityTree
/-
Sums and products have the same value for two pairs of directions if their objects do.
-/
namespace Alta
noncomputable section

theorem part_same (f : Fn) (i : Input) (hi : i = .CARTESIAN ∨ (f.par.input = i ∧ i.Named)) (c c' : Cart)
    (hf : f.reflect c' = f.reflect c) (x x' : List ℝ) (hx : convertInput (arr c.toList) .CARTESIAN i = some x)
    (hx' : convertInput (arr c'.toList) .CARTESIAN i = some x') :
    (convertInput (arr x') i f.par.input).bind f.value = (convertInput (arr x) i f.par.input).bind f.value := by
  rw [part_reflect f i hi c x hx, part_reflect f i hi c' x' hx', hf]

theorem reflect_of_same (f : Fn) (c c' : Cart)
    (hs : (convertInput (arr c'.toList) .CARTESIAN f.par.input).isSome =
      (convertInput (arr c.toList) .CARTESIAN f.par.input).isSome)
    (h : ∀ x x', convertInput (arr c.toList) .CARTESIAN f.par.input = some x →
      convertInput (arr c'.toList) .CARTESIAN f.par.input = some x' → f.value x' = f.value x) :
    f.reflect c' = f.reflect c := by
  unfold Fn.reflect
  cases hx : convertInput (arr c.toList) .CARTESIAN f.par.input with
  | none =>
    rw [hx] at hs
    cases hx' : convertInput (arr c'.toList) .CARTESIAN f.par.input with
    | none => rfl
    | some x' => rw [hx'] at hs; simp at hs
  | some x =>
    rw [hx] at hs
    cases hx' : convertInput (arr c'.toList) .CARTESIAN f.par.input with
    | none => rw [hx'] at hs; simp at hs
    | some x' => exact h x x' hx hx'

mutual
/-- for every composition -/
theorem composition_same (P : LobeObj → Prop) (c c' : Cart)
    (hs : ∀ p, (convertInput (arr c'.toList) .CARTESIAN p).isSome = (convertInput (arr c.toList) .CARTESIAN p).isSome)
    (hl : ∀ l : LobeObj, P l → l.toFn.reflect c' = l.toFn.reflect c) (f : FT LobeObj) (hf : f.AllObjects P)
    (hsh : f.toFn.SharedInput) : f.toFn.reflect c' = f.toFn.reflect c := by
  match f with
  | .leaf l => exact hl l hf
  | .compound p fs =>
    apply reflect_of_same _ c c' (hs _)
    intro x x' hx hx'
    exact members_same P c c' hs hl fs p.input hf hsh x x' hx hx' _
  | .product p f g a b =>
    apply reflect_of_same _ c c' (hs _)
    intro x x' hx hx'
    simp only [FT.toFn]
    rw [product_bind, product_bind,
      part_same f.toFn p.input hsh.1.2 c c' (composition_same P c c' hs hl f hf.1 hsh.1.1) x x' hx hx',
      part_same g.toFn p.input hsh.2.2 c c' (composition_same P c c' hs hl g hf.2 hsh.2.1) x x' hx hx']
/-- for the members of a sum -/
theorem members_same (P : LobeObj → Prop) (c c' : Cart)
    (hs : ∀ p, (convertInput (arr c'.toList) .CARTESIAN p).isSome = (convertInput (arr c.toList) .CARTESIAN p).isSome)
    (hl : ∀ l : LobeObj, P l → l.toFn.reflect c' = l.toFn.reflect c) (fs : FTs LobeObj) (i : Input)
    (hf : fs.AllObjects P) (hsh : fs.toFns.SharedInput i) (x x' : List ℝ)
    (hx : convertInput (arr c.toList) .CARTESIAN i = some x)
    (hx' : convertInput (arr c'.toList) .CARTESIAN i = some x') (res : List ℝ) :
    fs.toFns.valueLoop i x' res = fs.toFns.valueLoop i x res := by
  match fs with
  | .nil => rfl
  | .cons a f rest =>
    simp only [FTs.toFns]
    rw [valueLoop_bind, valueLoop_bind,
      part_same f.toFn i hsh.1.2 c c' (composition_same P c c' hs hl f hf.1 hsh.1.1) x x' hx hx']
    have hr := members_same P c c' hs hl rest i hf.2 hsh.2 x x' hx hx'
    simp only [hr]
end

end
end Alta
