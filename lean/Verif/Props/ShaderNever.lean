import Verif.Proofs.ShaderDeclares
import Verif.Props.ShaderLimits
/-
C72: the classes schlick masking and walter smith cannot be exported: whatever the function they are in, the file
is not a program.
-/
namespace Alta
noncomputable section
open Real Glsl

theorem charBal_of_digits (l : Str) (h : ∀ c ∈ l, isDigit c = true) : charBal l = 0 := by
  rw [charBal_count]
  have h : ∀ c : Char, isDigit c = false → l.count c = 0 := by
    intro c hc
    rw [List.count_eq_zero]
    intro hm
    rw [h c hm] at hc
    simp at hc
  rw [h _ (by decide), h _ (by decide)]
  rfl

theorem charBal_other (c : Char) (s : Str) (h1 : c ≠ '(') (h2 : c ≠ ')') : charBal (c :: s) = charBal s := by
  simp [charBal, h1, h2]

theorem charBal_showInt (z : ℤ) : charBal (showInt z) = 0 := by
  have h : charBal (showNat z.natAbs) = 0 := charBal_of_digits _ (by
    intro c hc
    obtain ⟨d, hd, rfl⟩ := showNat_digits z.natAbs c hc
    exact isDigit_showDigits [⟨d, hd⟩] _ (by simp [showDigits]))
  unfold showInt
  split
  · rw [charBal_other _ _ (by decide) (by decide), h]
  · exact h

theorem charBal_decimal (d : Decimal) : charBal d.text = 0 := by
  unfold Decimal.text
  have h0 : ∀ l, charBal (showDigits l) = 0 := fun l => charBal_of_digits _ (isDigit_showDigits l)
  have h1 : charBal (if d.neg then ['-'] else []) = 0 := by split <;> rfl
  have h2 : charBal (if d.fp = [] then [] else '.' :: showDigits d.fp) = 0 := by
    split
    · rfl
    · rw [charBal_other _ _ (by decide) (by decide), h0]
  rw [charBal_append, charBal_append, charBal_append, h0, h1, h2]
  cases d.exp with
  | none => rfl
  | some e =>
    show 0 + 0 + 0 + charBal ('e' :: showInt e) = 0
    rw [charBal_other _ _ (by decide) (by decide), charBal_showInt]
    rfl

theorem charBal_numbers (fmt : ℝ → Decimal) (l : List ℝ) : charBal (numberList fmt l) = 0 := by
  induction l with
  | nil => rfl
  | cons x l ih =>
    cases l with
    | nil => exact charBal_decimal _
    | cons y l =>
      rw [numberList.eq_def]
      simp only [charBal_append, charBal_decimal, ih]
      decide

theorem charBal_vec3 (fmt : ℝ → Decimal) (n : ℕ) (v : ℕ → ℝ) : charBal (vec3Text fmt n v) = 0 := by
  unfold vec3Text
  simp only [charBal_append, charBal_numbers]
  decide

theorem charBal_vectors (fmt : ℝ → Decimal) (n : ℕ) (l : List (ℕ → ℝ)) : charBal (vectorList fmt n l) = 0 := by
  induction l with
  | nil => rfl
  | cons v l ih =>
    rw [vectorList.eq_def]
    simp only [charBal_append, charBal_vec3, ih]
    decide

theorem charBal_callText (fmt : ℝ → Decimal) (name : Str) (h : charBal name = 0) (n : ℕ) (vs : List (ℕ → ℝ)) :
    charBal (callText fmt name n vs) = 0 := by
  unfold callText
  simp only [charBal_append, charBal_vectors, h]
  decide

theorem charBal_plus (l : List Str) (h : ∀ s ∈ l, charBal s = 0) : charBal (plusList l) = 0 := by
  induction l with
  | nil => rfl
  | cons x l ih =>
    cases l with
    | nil => exact h x (by simp)
    | cons y l =>
      rw [plusList.eq_def]
      simp only [charBal_append, h x (by simp), ih (fun s hs => h s (by simp [hs]))]
      decide

/-- one for an object of the class schlick masking -/
def LobeObj.masks : LobeObj → ℤ
  | .schlickMasking _ => 1
  | _ => 0

theorem charBal_lobeCall (fmt : ℝ → Decimal) (o : LobeObj) : charBal (o.shaderCall fmt) = - o.masks := by
  cases o with
  | blinn s => exact charBal_callText fmt _ (by decide) _ _
  | retroblinn s => exact charBal_callText fmt _ (by decide) _ _
  | beckmann s => exact charBal_callText fmt _ (by decide) _ _
  | retrobeckmann s => exact charBal_callText fmt _ (by decide) _ _
  | ward s => exact charBal_callText fmt _ (by decide) _ _
  | abc s => exact charBal_callText fmt _ (by decide) _ _
  | diffuse s => exact charBal_vec3 fmt _ _
  | sg s => exact charBal_callText fmt _ (by decide) _ _
  | isoLafortune s =>
    refine charBal_plus _ ?_
    intro t ht
    obtain ⟨k, -, rfl⟩ := List.mem_map.mp ht
    exact charBal_callText fmt _ (by decide) _ _
  | lafortune s =>
    refine charBal_plus _ ?_
    intro t ht
    obtain ⟨k, -, rfl⟩ := List.mem_map.mp ht
    exact charBal_callText fmt _ (by decide) _ _
  | schlickFresnel s => exact charBal_callText fmt _ (by decide) _ _
  | normalizedSchlick s => exact charBal_callText fmt _ (by decide) _ _
  | retroSchlick s => exact charBal_callText fmt _ (by decide) _ _
  | schlickMasking s =>
    show charBal ("masking_schlick(L, V, N, X, Y, vec3".toList ++
      numberList fmt ((List.range s.par.dimY).map s.R) ++ "))".toList) = -1
    simp only [charBal_append, charBal_numbers]
    decide
  | smith s => exact charBal_callText fmt _ (by decide) _ _
  | walterSmith s =>
    show charBal ("walter_smith(L, V, N, X, Y, ".toList ++
      "vec3(".toList ++ numberList fmt ((List.range s.par.dimY).map s.R) ++ ") ) ".toList) = 0
    simp only [charBal_append, charBal_numbers]
    decide
  | sgd s => rfl

theorem charBal_endLines (l : List Str) : charBal (endLines l) = (l.map charBal).sum := by
  induction l with
  | nil => rfl
  | cons x l ih =>
    have : endLines (x :: l) = x ++ ['\n'] ++ endLines l := rfl
    rw [this, charBal_append, charBal_append, ih]
    simp [charBal]

theorem charBal_lobeBody (fmt : ℝ → Decimal) (o : LobeObj) (b : List Str) (h : o.shaderBody fmt = some b) :
    charBal (endLines b) = 0 := by
  rw [charBal_endLines]
  cases o with
  | blinn s => cases h; decide +kernel
  | retroblinn s => cases h; decide +kernel
  | beckmann s =>
    cases h
    unfold beckmannBody
    simp only [List.map_append, List.map_cons, List.sum_append, List.sum_cons, charBal_append, charBal_decimal,
      List.map_nil, List.sum_nil]
    decide +kernel
  | retrobeckmann s =>
    cases h
    unfold retrobeckmannBody
    simp only [List.map_append, List.map_cons, List.sum_append, List.sum_cons, charBal_append, charBal_decimal,
      List.map_nil, List.sum_nil]
    decide +kernel
  | ward s =>
    cases h
    unfold wardBody
    simp only [List.map_append, List.map_cons, List.sum_append, List.sum_cons, charBal_append, charBal_decimal,
      List.map_nil, List.sum_nil]
    decide +kernel
  | abc s => cases h; decide +kernel
  | diffuse s => cases h; decide +kernel
  | sg s =>
    cases h
    unfold sgBody
    cases s.type <;> unfold sgLines <;>
    simp only [List.map_append, List.map_cons, List.sum_append, List.sum_cons, charBal_append, charBal_decimal,
      List.map_nil, List.sum_nil] <;>
    decide +kernel
  | isoLafortune s => cases h; decide +kernel
  | lafortune s => cases h; decide +kernel
  | schlickFresnel s => cases h; decide +kernel
  | normalizedSchlick s => cases h; decide +kernel
  | retroSchlick s => cases h; decide +kernel
  | schlickMasking s => cases h; decide +kernel
  | smith s => cases h
  | walterSmith s => cases h; decide +kernel
  | sgd s => cases h

/-- number of objects of the class schlick masking -/
def maskingCount (l : List LobeObj) : ℤ := (l.map LobeObj.masks).sum

theorem maskingCount_append (a b : List LobeObj) : maskingCount (a ++ b) = maskingCount a + maskingCount b := by
  simp [maskingCount]

mutual
theorem charBal_call (fmt : ℝ → Decimal) (f : FT LobeObj) : charBal (f.shaderCall fmt) = - maskingCount f.objects := by
  match f with
  | .leaf o =>
    show charBal (o.shaderCall fmt) = - maskingCount [o]
    rw [charBal_lobeCall]
    simp [maskingCount]
  | .compound p .nil => rfl
  | .compound p (.cons a f rest) =>
    show charBal (f.shaderCall fmt ++ ";\n".toList ++ rest.shaderCall fmt) = - maskingCount (f.objects ++ rest.objects)
    rw [charBal_append, charBal_append, charBal_call fmt f, charBal_calls fmt rest, maskingCount_append]
    have : charBal ";\n".toList = 0 := by decide +kernel
    rw [this]
    ring
  | .product p f g a b =>
    show charBal ("(".toList ++ f.shaderCall fmt ++ " * ".toList ++ g.shaderCall fmt ++ ")\n".toList) =
      - maskingCount (f.objects ++ g.objects)
    rw [charBal_append, charBal_append, charBal_append, charBal_append, charBal_call fmt f, charBal_call fmt g,
      maskingCount_append]
    have h1 : charBal "(".toList = 1 := by decide +kernel
    have h2 : charBal " * ".toList = 0 := by decide +kernel
    have h3 : charBal ")\n".toList = -1 := by decide +kernel
    rw [h1, h2, h3]
    ring
theorem charBal_calls (fmt : ℝ → Decimal) (fs : FTs LobeObj) : charBal (fs.shaderCall fmt) = - maskingCount fs.objects := by
  match fs with
  | .nil => rfl
  | .cons a f rest =>
    show charBal ("\tres += ".toList ++ f.shaderCall fmt ++ ";\n".toList ++ rest.shaderCall fmt) =
      - maskingCount (f.objects ++ rest.objects)
    rw [charBal_append, charBal_append, charBal_append, charBal_call fmt f, charBal_calls fmt rest, maskingCount_append]
    have h1 : charBal ";\n".toList = 0 := by decide +kernel
    have h2 : charBal "\tres += ".toList = 0 := by decide +kernel
    rw [h1, h2]
    ring
end

mutual
theorem charBal_body (fmt : ℝ → Decimal) (f : FT LobeObj) (b : Str) (h : f.shaderBody fmt = some b) : charBal b = 0 := by
  match f with
  | .leaf o =>
    obtain ⟨l, h1, rfl⟩ := Option.map_eq_some_iff.mp (show (o.shaderBody fmt).map endLines = some b from h)
    exact charBal_lobeBody fmt o l h1
  | .compound p fs => exact charBal_bodies fmt fs b h
  | .product p f g _ _ =>
    simp only [FT.shaderBody, Option.bind_eq_some_iff, Option.map_eq_some_iff] at h
    obtain ⟨x, hx, y, hy, rfl⟩ := h
    rw [charBal_append, charBal_append, charBal_append, charBal_body fmt f x hx, charBal_body fmt g y hy]
    decide
theorem charBal_bodies (fmt : ℝ → Decimal) (fs : FTs LobeObj) (b : Str) (h : fs.shaderBody fmt = some b) :
    charBal b = 0 := by
  match fs with
  | .nil => cases h; rfl
  | .cons _ f rest =>
    simp only [FTs.shaderBody, Option.bind_eq_some_iff, Option.map_eq_some_iff] at h
    obtain ⟨x, hx, y, hy, rfl⟩ := h
    rw [charBal_append, charBal_append, charBal_body fmt f x hx, charBal_bodies fmt rest y hy]
    decide
end

theorem maskingCount_nonneg (l : List LobeObj) : 0 ≤ maskingCount l := by
  induction l with
  | nil => simp [maskingCount]
  | cons o l ih =>
    have : 0 ≤ o.masks := by cases o <;> simp [LobeObj.masks]
    simp only [maskingCount, List.map_cons, List.sum_cons] at ih ⊢
    omega

theorem maskingCount_pos (l : List LobeObj) (s : OneS) (h : LobeObj.schlickMasking s ∈ l) : 0 < maskingCount l := by
  obtain ⟨a, b, rfl⟩ := List.append_of_mem h
  have e : maskingCount (LobeObj.schlickMasking s :: b) = 1 + maskingCount b := by simp [maskingCount, LobeObj.masks]
  have h1 := maskingCount_nonneg a
  have h2 := maskingCount_nonneg b
  rw [maskingCount_append, e]
  omega

theorem export_balance (fmt : ℝ → Decimal) (f : FT LobeObj) (text : Str) (h : exportShader fmt f = some text) :
    charBal text = - maskingCount f.objects := by
  obtain ⟨b, h1, rfl⟩ := Option.map_eq_some_iff.mp h
  simp only [charBal_append, charBal_body fmt f b h1, charBal_call]
  have e1 : charBal "vec3 BRDF(vec3 L, vec3 V, vec3 N, vec3 X, vec3 Y)\n{\n\tvec3 res = ".toList = 0 := by decide +kernel
  have e2 : charBal "\treturn res;\n}\n\n".toList = 0 := by decide +kernel
  rw [e1, e2]
  ring

/-- C72 (limit).  The shader of a function lacks one opening parenthesis for each of its objects of the class
    schlick masking. -/
theorem masking_parentheses (fmt : ℝ → Decimal) (f : FT LobeObj) (text : Str) (h : exportShader fmt f = some text) :
    (text.count ')' : ℤ) = text.count '(' + maskingCount f.objects := by
  have := export_balance fmt f text h
  rw [charBal_count] at this
  omega

/-- C72 (limit).  A function with an object of the class schlick masking cannot be exported: the file is not a
    program. -/
theorem masking_not_shader (fmt : ℝ → Decimal) (f : FT LobeObj) (s : OneS)
    (hs : LobeObj.schlickMasking s ∈ f.objects) (text : Str) (h : exportShader fmt f = some text) :
    ∀ L V N X Y, shade text L V N X Y = none := by
  intro L V N X Y
  unfold shade
  cases hp : parse text with
  | none => rfl
  | some fs =>
    have h1 := parse_balanced text fs hp
    have h2 := masking_parentheses fmt f text h
    have h3 := maskingCount_pos _ s hs
    omega

/-! ### walter smith -/

/-- the declaration in the function of the class walter smith -/
def walterDecl : Str := "vec3 geom_term_view(0.0); ".toList

theorem walterDecl_bad : Bad (lexRun ⟨[], []⟩ walterDecl).done := by
  have e : lexRun ⟨[], []⟩ walterDecl = ⟨[.ident "vec3".toList, .ident "geom_term_view".toList, .sym '(', .num "0.0".toList,
    .sym ')', .sym ';'], []⟩ := by decide +kernel
  rw [e]
  left
  exact ⟨by decide, rfl⟩

theorem walterDecl_lex : lexRun ⟨[], []⟩ walterDecl = ⟨lexRun ⟨[], []⟩ walterDecl |>.done, []⟩ := by decide +kernel

/-- the text has the declaration -/
def HasDecl (s : Str) : Prop := ∃ a b, s = a ++ (' ' :: walterDecl) ++ b

theorem HasDecl.append_left (a s : Str) (h : HasDecl s) : HasDecl (a ++ s) := by
  obtain ⟨x, y, rfl⟩ := h
  exact ⟨a ++ x, y, by simp⟩

theorem HasDecl.append_right (a s : Str) (h : HasDecl s) : HasDecl (s ++ a) := by
  obtain ⟨x, y, rfl⟩ := h
  exact ⟨x, y ++ a, by simp⟩

theorem walterBody_decl : HasDecl (endLines walterSmithBody) := by
  refine ⟨endLines (walterSmithBody.take 26) ++ ['\t'], ['\n'] ++ endLines (walterSmithBody.drop 27), ?_⟩
  decide +kernel

mutual
theorem walter_decl (fmt : ℝ → Decimal) (f : FT LobeObj) (s : OneS) (hs : LobeObj.walterSmith s ∈ f.objects) (b : Str)
    (h : f.shaderBody fmt = some b) : HasDecl b := by
  match f with
  | .leaf o =>
    obtain rfl : LobeObj.walterSmith s = o := by simpa [FT.objects] using hs
    cases h
    exact walterBody_decl
  | .compound p fs => exact walter_decls fmt fs s hs b h
  | .product p f g _ _ =>
    simp only [FT.shaderBody, Option.bind_eq_some_iff, Option.map_eq_some_iff] at h
    obtain ⟨x, hx, y, hy, rfl⟩ := h
    rcases List.mem_append.mp (show LobeObj.walterSmith s ∈ f.objects ++ g.objects from hs) with h | h
    · exact ((walter_decl fmt f s h x hx).append_right _).append_right _ |>.append_right _
    · exact ((walter_decl fmt g s h y hy).append_left _).append_right _
theorem walter_decls (fmt : ℝ → Decimal) (fs : FTs LobeObj) (s : OneS) (hs : LobeObj.walterSmith s ∈ fs.objects) (b : Str)
    (h : fs.shaderBody fmt = some b) : HasDecl b := by
  match fs with
  | .nil => simp [FTs.objects] at hs
  | .cons _ f rest =>
    simp only [FTs.shaderBody, Option.bind_eq_some_iff, Option.map_eq_some_iff] at h
    obtain ⟨x, hx, y, hy, rfl⟩ := h
    rcases List.mem_append.mp (show LobeObj.walterSmith s ∈ f.objects ++ rest.objects from hs) with h | h
    · exact ((walter_decl fmt f s h x hx).append_right _).append_right _
    · exact (walter_decls fmt rest s h y hy).append_left _
end

/-- C72 (limit).  A function with an object of the class walter smith cannot be exported: the file is not a program
    (`vec3 geom_term_view(0.0);` is not a declaration of the shading language). -/
theorem walterSmith_not_shader (fmt : ℝ → Decimal) (f : FT LobeObj) (s : OneS)
    (hs : LobeObj.walterSmith s ∈ f.objects) (text : Str) (h : exportShader fmt f = some text) :
    ∀ L V N X Y, shade text L V N X Y = none := by
  obtain ⟨b, h1, rfl⟩ := Option.map_eq_some_iff.mp h
  have key : HasDecl (b ++ "vec3 BRDF(vec3 L, vec3 V, vec3 N, vec3 X, vec3 Y)\n{\n\tvec3 res = ".toList ++
      f.shaderCall fmt ++ "\treturn res;\n}\n\n".toList) :=
    (((walter_decl fmt f s hs b h1).append_right _).append_right _).append_right _
  obtain ⟨x, y, e⟩ := key
  intro L V N X Y
  unfold shade
  rw [e, parse_declares x y walterDecl walterDecl_lex walterDecl_bad]
  rfl

mutual
/-- C72 (limit).  The export of a function with an object of the class sgd ends the program. -/
theorem sgd_stops (fmt : ℝ → Decimal) (f : FT LobeObj) (s : SgdS) (h : LobeObj.sgd s ∈ f.objects) :
    f.shaderBody fmt = none := by
  match f with
  | .leaf o =>
    obtain rfl : LobeObj.sgd s = o := by simpa [FT.objects] using h
    rfl
  | .compound p fs => exact sgd_stops_list fmt fs s h
  | .product p f g a b =>
    have h' : LobeObj.sgd s ∈ f.objects ++ g.objects := h
    simp only [FT.shaderBody]
    rcases List.mem_append.mp h' with h | h
    · rw [sgd_stops fmt f s h]; rfl
    · rw [sgd_stops fmt g s h]; cases f.shaderBody fmt <;> rfl
/-- the same for the members of a sum -/
theorem sgd_stops_list (fmt : ℝ → Decimal) (fs : FTs LobeObj) (s : SgdS) (h : LobeObj.sgd s ∈ fs.objects) :
    fs.shaderBody fmt = none := by
  match fs with
  | .nil => simp [FTs.objects] at h
  | .cons a f rest =>
    have h' : LobeObj.sgd s ∈ f.objects ++ rest.objects := h
    simp only [FTs.shaderBody]
    rcases List.mem_append.mp h' with h | h
    · rw [sgd_stops fmt f s h]; rfl
    · rw [sgd_stops_list fmt rest s h]; cases f.shaderBody fmt <;> rfl
end

end
end Alta
